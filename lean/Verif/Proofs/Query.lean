import Verif.Proofs.Search

/-! # Words, expressions, arguments -/

namespace Mairix
open Spec

/-- The table lists each word under exactly the messages that have it in field `f`. -/
def Lists (tt : DbTable) (info : List Info) (f : Field) : Prop :=
  (∀ w enc, (some w, enc) ∈ tt → ∀ i ∈ readAll enc, ∃ m, info[i]? = some m ∧ w ∈ m.words f) ∧
  (∀ (i : Nat) m w, info[i]? = some m → w ∈ m.words f → ∃ enc, (some w, enc) ∈ tt ∧ i ∈ readAll enc)

/-- The table of message identifiers lists (in its second list) each identifier under exactly the
messages that have it. -/
def Lists2 (tt : DbTable2) (info : List Info) : Prop :=
  (∀ t ∈ tt, t.1 ≠ none) ∧
  (∀ w enc0 enc1, (some w, enc0, enc1) ∈ tt → ∀ i ∈ readAll enc1, ∃ m, info[i]? = some m ∧ w ∈ m.ids) ∧
  (∀ (i : Nat) m w, info[i]? = some m → w ∈ m.ids →
    ∃ enc0 enc1, (some w, enc0, enc1) ∈ tt ∧ i ∈ readAll enc1)

/-- The data of one message. -/
structure MsgShows (m : DbMsg) (x : Info) : Prop where
  date : m.date = x.date
  size : m.size = x.size
  seen : (m.typeAndFlags &&& FLAG_SEEN != 0) = x.has .seen
  replied : (m.typeAndFlags &&& FLAG_REPLIED != 0) = x.has .replied
  flagged : (m.typeAndFlags &&& FLAG_FLAGGED != 0) = x.has .flagged
  dead : m.type = DB_MSG_DEAD ↔ x.path = none

/-- The opened database is an index of the messages `info`. -/
structure Shows (db : ReadDb) (info : List Info) : Prop where
  len : db.msgs.length = info.length
  to : Lists db.to info .to
  cc : Lists db.cc info .cc
  sender : Lists db.«from» info .sender
  subject : Lists db.subject info .subject
  body : Lists db.body info .body
  attachment : Lists db.attachmentName info .attachment
  ids : Lists2 db.msgIds info
  each : ∀ (i : Nat) m x, db.msgs[i]? = some m → info[i]? = some x → MsgShows m x

/-- Every message is a file, in an mbox, or dead, and the paths are as in `info`. -/
def PathsKnown (db : ReadDb) (info : List Info) : Prop :=
  ∀ (i : Nat) m x, db.msgs[i]? = some m → info[i]? = some x → pathToken db.mboxPaths m = .ok x.path

/-- The conditions under which the code can process a condition at all (patterns of at most 31
letters) and handles it right (no errors together with an anchor). -/
def Searchable (fields : List Field) (t : Term) : Prop :=
  t.Plain ∧ (∀ k, t.errors = some k → t.word.length ≤ 31 ∧ (t.anchored = true → k = 0)) ∧
    (Field.path ∈ fields → t.word.length ≤ 31)

/-- The keys stand for the fields. -/
structure KeysFor (k : Keys) (fields : List Field) : Prop where
  to : k.to = true ↔ .to ∈ fields
  cc : k.cc = true ↔ .cc ∈ fields
  sender : k.«from» = true ↔ .sender ∈ fields
  subject : k.subject = true ↔ .subject ∈ fields
  body : k.body = true ↔ .body ∈ fields
  attachment : k.attName = true ↔ .attachment ∈ fields
  path : k.path = true ↔ .path ∈ fields

theorem onlyIf_ok {n hits} {P Q : Nat → Prop} (b : Bool) (S : List Bool → Res (List Bool)) (h : IsVec n hits P)
    (hS : ∃ h', S hits = .ok h' ∧ IsVec n h' (fun i => P i ∨ Q i)) :
    ∃ h', onlyIf b S hits = .ok h' ∧ IsVec n h' (fun i => P i ∨ (b = true ∧ Q i)) := by
  cases b with
  | false => exact ⟨hits, rfl, h.congr (by simp)⟩
  | true => obtain ⟨h', e, v⟩ := hS; exact ⟨h', e, v.congr (by simp)⟩

theorem lists_bound {tt info f} (h : Lists tt info f) :
    ∀ w enc, (some w, enc) ∈ tt → ∀ i ∈ readAll enc, i < info.length := by
  intro w enc hm i hi
  obtain ⟨m, h1, _⟩ := h.1 w enc hm i hi
  exact (List.getElem?_eq_some_iff.1 h1).1

theorem string_table {tt info f} (h : Lists tt info f) (t : Term) (he : t.errors = none) (hf : f ≠ .path)
    {hits P} (hv : IsVec info.length hits P) :
    ∃ h', matchString (lower t.word) tt hits = .ok h' ∧
      IsVec info.length h' (fun i => P i ∨ ∃ x, info[i]? = some x ∧ t.HoldsIn x f) := by
  obtain ⟨h', e, v⟩ := matchString_ok (lower t.word) tt hv (lists_bound h)
  refine ⟨h', e, v.congr ?_⟩
  intro i _
  have : (∃ enc, (some (lower t.word), enc) ∈ tt ∧ i ∈ readAll enc) ↔ ∃ x, info[i]? = some x ∧ t.HoldsIn x f := by
    constructor
    · rintro ⟨enc, h1, h2⟩
      obtain ⟨m, h3, h4⟩ := h.1 _ _ h1 i h2
      refine ⟨m, h3, ?_⟩
      cases f <;> first | exact absurd rfl hf | exact ⟨_, h4, by rw [he]⟩
    · rintro ⟨x, h1, h2⟩
      have : lower t.word ∈ x.words f := by
        cases f <;> first
          | exact absurd rfl hf
          | (obtain ⟨v, h3, h4⟩ := h2; rw [he] at h4; simp only at h4; rw [← h4]; exact h3)
      exact h.2 i x _ h1 this
  rw [this]

theorem substring_table {tt info f} (h : Lists tt info f) (t : Term) {k} (he : t.errors = some k) (hf : f ≠ .path)
    (h0 : lower t.word ≠ []) (hP : (lower t.word).length ≤ 31) (ha : t.anchored = true → k = 0)
    {hits P} (hv : IsVec info.length hits P) :
    ∃ h', matchSubstring tt (lower t.word) k t.anchored hits = .ok h' ∧
      IsVec info.length h' (fun i => P i ∨ ∃ x, info[i]? = some x ∧ t.HoldsIn x f) := by
  obtain ⟨h', e, v⟩ := matchSubstring_ok (lower t.word) k t.anchored h0 hP ha tt hv (lists_bound h)
  refine ⟨h', e, v.congr ?_⟩
  intro i _
  have : (∃ v enc, (some v, enc) ∈ tt ∧ Contains t.anchored k (lower t.word) v ∧ i ∈ readAll enc) ↔
      ∃ x, info[i]? = some x ∧ t.HoldsIn x f := by
    constructor
    · rintro ⟨v, enc, h1, h2, h3⟩
      obtain ⟨m, h4, h5⟩ := h.1 _ _ h1 i h3
      refine ⟨m, h4, ?_⟩
      cases f <;> first | exact absurd rfl hf | exact ⟨_, h5, by rw [he]; exact h2⟩
    · rintro ⟨x, h1, h2⟩
      have : ∃ v ∈ x.words f, Contains t.anchored k (lower t.word) v := by
        cases f <;> first
          | exact absurd rfl hf
          | (obtain ⟨v, h3, h4⟩ := h2; rw [he] at h4; exact ⟨v, h3, h4⟩)
      obtain ⟨v, h3, h4⟩ := this
      obtain ⟨enc, h5, h6⟩ := h.2 i x v h1 h3
      exact ⟨v, enc, h5, h4, h6⟩
  rw [this]

theorem paths_ok {db : ReadDb} {info : List Info} (hlen : db.msgs.length = info.length)
    (hp : PathsKnown db info) (t : Term) (k : Nat) (hk : t.errors.getD 0 = k) (h0 : t.word ≠ [])
    (hP : t.word.length ≤ 31) (ha : t.anchored = true → k = 0) :
    ∃ h', matchPaths db t.word k t.anchored = .ok h' ∧
      IsVec info.length h' (fun i => ∃ x, info[i]? = some x ∧ t.HoldsIn x .path) := by
  obtain ⟨x, hx⟩ := buildMatchVector_ok h0 hP
  have hm : ∀ m ∈ db.msgs, ∃ o, pathToken db.mboxPaths m = .ok o := by
    intro m hm
    obtain ⟨i, hi, rfl⟩ := List.getElem_of_mem hm
    exact ⟨_, hp i db.msgs[i] info[i] (by simp [hi]) (by simp [← hlen, hi])⟩
  obtain ⟨h', e, v⟩ := matchSubstringInPaths_ok db.mboxPaths t.word k t.anchored h0 hP ha db.msgs hm
  refine ⟨h', by simp [matchPaths, hx, e, bind, Except.bind], ?_⟩
  rw [hlen] at v
  refine v.congr ?_
  intro i hi
  have h1 : db.msgs[i]? = some (db.msgs[i]'(by omega)) := by simp [hlen, hi]
  have h2 : info[i]? = some info[i] := by simp [hi]
  have h3 := hp i _ _ h1 h2
  rw [h1, h2]
  simp only [Option.some.injEq, exists_eq_left', Term.HoldsIn, hk]
  constructor
  · rintro ⟨_, p, rfl, h5, h6⟩
    rw [h3] at h5
    exact ⟨p, Except.ok.inj h5, h6⟩
  · rintro ⟨p, h5, h6⟩
    exact ⟨_, p, rfl, by rw [h3, h5], h6⟩

theorem lower_length (t : Text) : (lower t).length = t.length := by simp [lower]

theorem lower_ne_nil {t : Text} (h : t ≠ []) : lower t ≠ [] := by
  intro e; apply h; have := congrArg List.length e; rw [lower_length] at this; simpa using this

/-- The vector for one word. -/
theorem wordHits_ok {db : ReadDb} {info : List Info} (hs : Shows db info) {k : Keys} {fields : List Field}
    (hk : KeysFor k fields) (hpath : Field.path ∈ fields → PathsKnown db info ∧ ∀ f ∈ fields, f = .path)
    (t : Term) (ht : Searchable fields t) (neg : Bool) :
    ∃ h', wordHits db k { negate := neg, leftAnchor := t.anchored, word := t.word, equal := t.errors } = .ok h' ∧
      IsVec info.length h' (fun i => ∃ x, info[i]? = some x ∧ ∃ f ∈ fields, t.HoldsIn x f) := by
  have hz : IsVec info.length (List.replicate db.msgs.length false) (fun _ => False) := by
    rw [hs.len]; exact isVec_zeros _
  have hw0 := ht.1.1
  have final : ∀ (h6 : List Bool) (S : List Bool → Res (List Bool)),
      IsVec info.length h6 (fun i => (((((False ∨ (k.to = true ∧ ∃ x, info[i]? = some x ∧ t.HoldsIn x .to)) ∨
        (k.cc = true ∧ ∃ x, info[i]? = some x ∧ t.HoldsIn x .cc)) ∨
        (k.«from» = true ∧ ∃ x, info[i]? = some x ∧ t.HoldsIn x .sender)) ∨
        (k.subject = true ∧ ∃ x, info[i]? = some x ∧ t.HoldsIn x .subject)) ∨
        (k.body = true ∧ ∃ x, info[i]? = some x ∧ t.HoldsIn x .body)) ∨
        (k.attName = true ∧ ∃ x, info[i]? = some x ∧ t.HoldsIn x .attachment)) →
      (k.path = true → ∃ h', S h6 = .ok h' ∧
        IsVec info.length h' (fun i => ∃ x, info[i]? = some x ∧ t.HoldsIn x .path)) →
      ∃ h', onlyIf k.path S h6 = .ok h' ∧
        IsVec info.length h' (fun i => ∃ x, info[i]? = some x ∧ ∃ f ∈ fields, t.HoldsIn x f) := by
    intro h6 S v6 hS
    by_cases hp : k.path = true
    · obtain ⟨h', e, v⟩ := hS hp
      refine ⟨h', by simp [onlyIf, hp, e], v.congr ?_⟩
      intro i _
      have hin := hk.path.1 hp
      have hall := (hpath hin).2
      constructor
      · rintro ⟨x, h1, h2⟩; exact ⟨x, h1, .path, hin, h2⟩
      · rintro ⟨x, h1, f, h2, h3⟩; have := hall f h2; subst this; exact ⟨x, h1, h3⟩
    · refine ⟨h6, by simp [onlyIf, hp], v6.congr ?_⟩
      intro i _
      have hnp : Field.path ∉ fields := fun h => hp (hk.path.2 h)
      simp only [hk.to, hk.cc, hk.sender, hk.subject, hk.body, hk.attachment, false_or]
      constructor
      · rintro (((((⟨h1, x, h2, h3⟩ | ⟨h1, x, h2, h3⟩) | ⟨h1, x, h2, h3⟩) | ⟨h1, x, h2, h3⟩) |
          ⟨h1, x, h2, h3⟩) | ⟨h1, x, h2, h3⟩) <;> exact ⟨x, h2, _, h1, h3⟩
      · rintro ⟨x, h1, f, h2, h3⟩
        cases f with
        | path => exact absurd h2 hnp
        | to => exact .inl (.inl (.inl (.inl (.inl ⟨h2, x, h1, h3⟩))))
        | cc => exact .inl (.inl (.inl (.inl (.inr ⟨h2, x, h1, h3⟩))))
        | sender => exact .inl (.inl (.inl (.inr ⟨h2, x, h1, h3⟩)))
        | subject => exact .inl (.inl (.inr ⟨h2, x, h1, h3⟩))
        | body => exact .inl (.inr ⟨h2, x, h1, h3⟩)
        | attachment => exact .inr ⟨h2, x, h1, h3⟩
  cases he : t.errors with
  | none =>
    obtain ⟨h1, e1, v1⟩ := onlyIf_ok k.to _ hz (string_table hs.to t he (by simp) hz)
    obtain ⟨h2, e2, v2⟩ := onlyIf_ok k.cc _ v1 (string_table hs.cc t he (by simp) v1)
    obtain ⟨h3, e3, v3⟩ := onlyIf_ok k.«from» _ v2 (string_table hs.sender t he (by simp) v2)
    obtain ⟨h4, e4, v4⟩ := onlyIf_ok k.subject _ v3 (string_table hs.subject t he (by simp) v3)
    obtain ⟨h5, e5, v5⟩ := onlyIf_ok k.body _ v4 (string_table hs.body t he (by simp) v4)
    obtain ⟨h6, e6, v6⟩ := onlyIf_ok k.attName _ v5 (string_table hs.attachment t he (by simp) v5)
    obtain ⟨h7, e7, v7⟩ := final h6 (fun _ => matchPaths db t.word 0 t.anchored) v6 (fun hp => by
      have hin := hk.path.1 hp
      exact paths_ok hs.len (hpath hin).1 t 0 (by simp [he]) hw0 (ht.2.2 hin) (fun _ => rfl))
    exact ⟨h7, by simp only [wordHits, e1, e2, e3, e4, e5, e6, e7, bind, Except.bind], v7⟩
  | some j =>
    have hl := (ht.2.1 j he).1
    have ha := (ht.2.1 j he).2
    have hl0 := lower_ne_nil hw0
    have hl' : (lower t.word).length ≤ 31 := by rw [lower_length]; exact hl
    obtain ⟨h1, e1, v1⟩ := onlyIf_ok k.to _ hz (substring_table hs.to t he (by simp) hl0 hl' ha hz)
    obtain ⟨h2, e2, v2⟩ := onlyIf_ok k.cc _ v1 (substring_table hs.cc t he (by simp) hl0 hl' ha v1)
    obtain ⟨h3, e3, v3⟩ := onlyIf_ok k.«from» _ v2 (substring_table hs.sender t he (by simp) hl0 hl' ha v2)
    obtain ⟨h4, e4, v4⟩ := onlyIf_ok k.subject _ v3 (substring_table hs.subject t he (by simp) hl0 hl' ha v3)
    obtain ⟨h5, e5, v5⟩ := onlyIf_ok k.body _ v4 (substring_table hs.body t he (by simp) hl0 hl' ha v4)
    obtain ⟨h6, e6, v6⟩ := onlyIf_ok k.attName _ v5 (substring_table hs.attachment t he (by simp) hl0 hl' ha v5)
    obtain ⟨h7, e7, v7⟩ := final h6 (fun _ => matchPaths db t.word j t.anchored) v6 (fun hp => by
      have hin := hk.path.1 hp
      exact paths_ok hs.len (hpath hin).1 t j (by simp [he]) hw0 (ht.2.2 hin) ha)
    exact ⟨h7, by simp only [wordHits, e1, e2, e3, e4, e5, e6, e7, bind, Except.bind], v7⟩

/-! ## Parsing -/

theorem findIdx?_none_of {c : UInt8} {s : Text} (h : c ∉ s) : s.findIdx? (· == c) = none := by
  rw [List.findIdx?_eq_none_iff]
  intro x hx
  simp only [beq_eq_false_iff_ne, ne_eq]
  rintro rfl; exact h hx

theorem findIdx?_append_of {c : UInt8} {s rest : Text} (h : c ∉ s) :
    (s ++ c :: rest).findIdx? (· == c) = some s.length := by
  rw [List.findIdx?_append, findIdx?_none_of h]
  simp [List.findIdx?_cons]

theorem le_of_findIdx? {c : UInt8} {s rest : Text} {i : Nat} (h : c ∉ s)
    (hi : (s ++ rest).findIdx? (· == c) = some i) : s.length ≤ i := by
  rw [List.findIdx?_append, findIdx?_none_of h] at hi
  simp at hi
  obtain ⟨a, _, h⟩ := hi
  omega

theorem nextWord_last {s : Text} (h1 : (0x2f : UInt8) ∉ s) (h2 : (0x2c : UInt8) ∉ s) :
    nextWord s = (s, false, []) := by
  simp [nextWord, findIdx?_none_of h1, findIdx?_none_of h2]

theorem nextWord_and {s rest : Text} (h1 : (0x2f : UInt8) ∉ s) (h2 : (0x2c : UInt8) ∉ s) :
    nextWord (s ++ bs "," ++ rest) = (s.filter (fun c => !isSpace c), false, rest) := by
  have e : s ++ bs "," ++ rest = s ++ 0x2c :: rest := by simp [bs]
  rw [e]
  have ha := findIdx?_append_of (rest := rest) h2
  have hd : (s ++ 0x2c :: rest).drop (s.length + 1) = rest := by
    rw [List.drop_append]; simp
  cases ho : (s ++ 0x2c :: rest).findIdx? (· == 0x2f) with
  | none => simp [nextWord, ha, ho, hd]
  | some o =>
    have h3 : (0x2f : UInt8) ∉ s ++ [0x2c] := by simp [h1]
    have : s.length < o := by
      have h4 : ((s ++ [0x2c]) ++ rest).findIdx? (· == 0x2f) = some o := by simpa using ho
      have := le_of_findIdx? h3 h4
      simp at this; omega
    simp [nextWord, ha, ho, this, hd]

theorem nextWord_or {s rest : Text} (h1 : (0x2f : UInt8) ∉ s) (h2 : (0x2c : UInt8) ∉ s) :
    nextWord (s ++ bs "/" ++ rest) = (s.filter (fun c => !isSpace c), true, rest) := by
  have e : s ++ bs "/" ++ rest = s ++ 0x2f :: rest := by simp [bs]
  rw [e]
  have ho := findIdx?_append_of (rest := rest) h1
  have hd : (s ++ 0x2f :: rest).drop (s.length + 1) = rest := by
    rw [List.drop_append]; simp
  cases ha : (s ++ 0x2f :: rest).findIdx? (· == 0x2c) with
  | none => simp [nextWord, ha, ho, hd]
  | some a =>
    have h3 : (0x2c : UInt8) ∉ s ++ [0x2f] := by simp [h2]
    have : ¬ a < s.length := by
      have h4 : ((s ++ [0x2f]) ++ rest).findIdx? (· == 0x2c) = some a := by simpa using ha
      have := le_of_findIdx? h3 h4
      simp at this; omega
    simp [nextWord, ha, ho, this, hd]

theorem decimal_snoc (d : Text) (c : UInt8) : decimal (d ++ [c]) = 10 * decimal d + (c.toNat - 48) := by
  simp [decimal]

theorem numeral_spec {d k} (h : Numeral d k) : (∀ c ∈ d, isDigit c = true) ∧ decimal d = k := by
  induction h with
  | nil => simp [decimal]
  | snoc c _ h1 h2 ih =>
    refine ⟨?_, by rw [decimal_snoc, ih.2]⟩
    intro x hx
    rcases List.mem_append.1 hx with hx | hx
    · exact ih.1 x hx
    · simp at hx; subst hx; simp [isDigit, h1, h2]

theorem takeWhile_all {p : UInt8 → Bool} : ∀ {l : Text}, (∀ c ∈ l, p c = true) → l.takeWhile p = l
  | [], _ => rfl
  | c :: l, h => by
    rw [List.takeWhile_cons, if_pos (h c (by simp)), takeWhile_all (fun x hx => h x (by simp [hx]))]

theorem takeOff_yes (c : UInt8) (r : Text) : takeOff c (c :: r) = (true, r) := by simp [takeOff]

theorem takeOff_no {c : UInt8} {r : Text} (h : r.head? ≠ some c) : takeOff c r = (false, r) := by
  cases r with
  | nil => rfl
  | cons x r => simp only [takeOff]; rw [if_neg]; intro e; apply h; simp [e]

theorem takeOff_pre (b : Bool) (ch : String) (c : UInt8) (hc : bs ch = [c]) {r : Text} (h : r.head? ≠ some c) :
    takeOff c ((if b then bs ch else []) ++ r) = (b, r) := by
  cases b with
  | true => rw [if_pos rfl, hc]; exact takeOff_yes c r
  | false => simpa using takeOff_no h

theorem parseWord_written {t : Term} {s : Text} (hw : t.WrittenAs s) (hp : t.Plain) :
    parseWord s = { negate := t.negated, leftAnchor := t.anchored, word := t.word, equal := t.errors } := by
  have hd1 : bs "~" = [0x7e] := by decide
  have hd2 : bs "^" = [0x5e] := by decide
  have hd3 : bs "=" = [0x3d] := by decide
  have hsep : bs "/,=" = [0x2f, 0x2c, 0x3d] := by decide
  have hpre : bs "~^" = [0x7e, 0x5e] := by decide
  obtain ⟨h0, hchars, hhead⟩ := hp
  have heq : (0x3d : UInt8) ∉ t.word := by
    intro h; have := (hchars _ h).2; rw [hsep] at this; simp at this
  have hh : ∀ r : Text, ((t.word ++ r).head? ≠ some 0x5e) ∧ ((t.word ++ r).head? ≠ some 0x7e) := by
    intro r
    cases htw : t.word with
    | nil => exact absurd htw h0
    | cons x w =>
      have := hhead x (by simp [htw])
      rw [hpre] at this
      simp at this
      simp [this.1, this.2]
  have hh2 : ∀ (a : Bool) (r : Text), ((if a then bs "^" else []) ++ (t.word ++ r)).head? ≠ some 0x7e := by
    intro a r
    cases a with
    | true => simp [hd2]
    | false => simpa using (hh r).2
  cases hw with
  | exact n a w =>
    simp only at heq hh hh2
    have a1 := takeOff_pre n "~" 0x7e hd1 (hh2 a [])
    rw [List.append_nil] at a1
    have a2 := takeOff_pre a "^" 0x5e hd2 (by simpa using (hh []).1)
    simp only [List.append_assoc]
    simp only [parseWord, a1, a2, findIdx?_none_of heq]
  | approx n a w k d hn =>
    simp only at heq hh hh2
    obtain ⟨hdig, hdec⟩ := numeral_spec hn
    have a1 := takeOff_pre n "~" 0x7e hd1 (hh2 a (bs "=" ++ d))
    have a2 := takeOff_pre a "^" 0x5e hd2 ((hh (bs "=" ++ d)).1)
    simp only [List.append_assoc]
    simp only [parseWord, a1, a2]
    have e : w ++ (bs "=" ++ d) = w ++ 0x3d :: d := by simp [hd3]
    rw [e]
    have hdr : (w ++ 0x3d :: d).drop (w.length + 1) = d := by rw [List.drop_append]; simp
    rw [findIdx?_append_of heq]
    simp only [hdr]
    cases d with
    | nil => simp [decimal] at hdec; simp [← hdec]
    | cons c r =>
      have hc := hdig c (by simp)
      have htk : (c :: r).takeWhile isDigit = c :: r := by
        exact takeWhile_all hdig
      simp only [hc, if_true, htk, hdec]
      simp

theorem written_ne_nil {t : Term} {s : Text} (hw : t.WrittenAs s) (hp : t.Plain) : s ≠ [] := by
  have := hp.1
  cases hw <;> simp_all

theorem written_chars {t : Term} {s : Text} (hw : t.WrittenAs s) (hp : t.Plain) :
    (0x2f : UInt8) ∉ s ∧ (0x2c : UInt8) ∉ s := by
  have hd1 : bs "~" = [0x7e] := by decide
  have hd2 : bs "^" = [0x5e] := by decide
  have hd3 : bs "=" = [0x3d] := by decide
  have hsep : bs "/,=" = [0x2f, 0x2c, 0x3d] := by decide
  have h1 : (0x2f : UInt8) ∉ t.word := by
    intro h; have := (hp.2.1 _ h).2; rw [hsep] at this; simp at this
  have h2 : (0x2c : UInt8) ∉ t.word := by
    intro h; have := (hp.2.1 _ h).2; rw [hsep] at this; simp at this
  cases hw with
  | exact n a w =>
    constructor
    · cases n <;> cases a <;> simpa [hd1, hd2] using h1
    · cases n <;> cases a <;> simpa [hd1, hd2] using h2
  | approx n a w k d hn =>
    have hdig := (numeral_spec hn).1
    have hq : ∀ c : UInt8, isDigit c = false → c ∉ d := by
      intro c hc h; rw [hdig c h] at hc; cases hc
    constructor
    · cases n <;> cases a <;> simpa [hd1, hd2, hd3, hq 0x2f (by decide)] using h1
    · cases n <;> cases a <;> simpa [hd1, hd2, hd3, hq 0x2c (by decide)] using h2

theorem spaced_chars {s r : Text} (h : Spaced s r) {c : UInt8} (hc : isSpace c = false) (hr : c ∉ r) : c ∉ s := by
  intro hs
  apply hr
  rw [← h]
  simp [hs, hc]

theorem expr_written_ne_nil {e : Expr} {s : Text} (hw : e.WrittenAs s) (hp : ∀ alt ∈ e, ∀ t ∈ alt, t.Plain) :
    s ≠ [] := by
  cases hw with
  | @last t _ h => exact written_ne_nil h (hp [t] (by simp) t (by simp))
  | and => simp [bs]
  | or => simp [bs]

/-- Does message `i` satisfy a condition? -/
def TermAt (info : List Info) (fields : List Field) (t : Term) (i : Nat) : Prop :=
  ∃ x, info[i]? = some x ∧ t.Holds fields x

theorem wordLoop_ok {db : ReadDb} {info : List Info} (hs : Shows db info) {k : Keys} {fields : List Field}
    (hk : KeysFor k fields) (hpath : Field.path ∈ fields → PathsKnown db info ∧ ∀ f ∈ fields, f = .path)
    {e : Expr} {s : Text} (hw : e.WrittenAs s) :
    (∀ alt ∈ e, ∀ t ∈ alt, Searchable fields t) → ∀ (fuel : Nat), s.length < fuel → ∀ {hit1 hit2 P1 P2},
    IsVec info.length hit1 P1 → IsVec info.length hit2 P2 →
    ∃ h1 h2, wordLoop db k fuel s hit1 hit2 = .ok (h1, h2) ∧
      IsVec info.length (orCombine h2 h1) (fun i => P2 i ∨
        (P1 i ∧ ∀ t ∈ e.headD [], TermAt info fields t i) ∨ ∃ alt ∈ e.tail, ∀ t ∈ alt, TermAt info fields t i) := by
  have hstep : ∀ (t : Term) (r : Text), t.WrittenAs r → Searchable fields t → ∀ {hit1 P1}, IsVec info.length hit1 P1 →
      ∃ h0, wordHits db k (parseWord r) = .ok h0 ∧ (parseWord r).negate = t.negated ∧
        IsVec info.length (andCombine t.negated hit1 h0) (fun i => P1 i ∧ TermAt info fields t i) := by
    intro t r hr ht hit1 P1 hv
    rw [parseWord_written hr ht.1]
    obtain ⟨h0, e0, v0⟩ := wordHits_ok hs hk hpath t ht t.negated
    refine ⟨h0, e0, rfl, (hv.andCombine t.negated v0).congr ?_⟩
    intro i hi
    have : info[i]? = some info[i] := by simp [hi]
    simp only [TermAt, this, Term.Holds, Option.some.injEq, exists_eq_left']
  induction hw with
  | @last t s h =>
    intro ht fuel hf hit1 hit2 P1 P2 v1 v2
    obtain ⟨fuel, rfl⟩ : ∃ f, fuel = f + 1 := ⟨fuel - 1, by omega⟩
    have ht := ht [t] (by simp) t (by simp)
    obtain ⟨hc1, hc2⟩ := written_chars h ht.1
    obtain ⟨h0, e0, en, v0⟩ := hstep t s h ht v1
    refine ⟨_, _, ?_, (v2.orCombine v0).congr ?_⟩
    · simp only [wordLoop, nextWord_last hc1 hc2, e0, en, bind, Except.bind]
      simp
    · intro i _; simp
  | @and t r s alt e rest h hsp hrest ih =>
    intro hte fuel hf hit1 hit2 P1 P2 v1 v2
    obtain ⟨fuel, rfl⟩ : ∃ f, fuel = f + 1 := ⟨fuel - 1, by omega⟩
    have ht := hte (t :: alt) (by simp) t (by simp)
    obtain ⟨hc1, hc2⟩ := written_chars h ht.1
    have hc1 := spaced_chars hsp (by decide) hc1
    have hc2 := spaced_chars hsp (by decide) hc2
    obtain ⟨h0, e0, en, v0⟩ := hstep t r h ht v1
    have hte' : ∀ alt' ∈ alt :: e, ∀ t ∈ alt', Searchable fields t := by
      intro a ha t' ht'
      rcases List.mem_cons.1 ha with rfl | ha
      · exact hte (t :: a) (by simp) t' (by simp [ht'])
      · exact hte a (by simp [ha]) t' ht'
    have hne : rest ≠ [] := expr_written_ne_nil hrest (fun a ha t ht => (hte' a ha t ht).1)
    obtain ⟨h1, h2, e1, v⟩ := ih hte' fuel (by simp [bs] at hf; omega) v0 v2
    refine ⟨h1, h2, ?_, v.congr ?_⟩
    · unfold Spaced at hsp
      simp only [wordLoop, nextWord_and hc1 hc2, hsp, e0, en, bind, Except.bind]
      simp [hne, e1]
    · intro i _
      simp only [List.headD_cons, List.tail_cons, List.mem_cons, forall_eq_or_imp, and_assoc]
  | @or t r s e rest h hsp hrest ih =>
    intro hte fuel hf hit1 hit2 P1 P2 v1 v2
    obtain ⟨fuel, rfl⟩ : ∃ f, fuel = f + 1 := ⟨fuel - 1, by omega⟩
    have ht := hte [t] (by simp) t (by simp)
    obtain ⟨hc1, hc2⟩ := written_chars h ht.1
    have hc1 := spaced_chars hsp (by decide) hc1
    have hc2 := spaced_chars hsp (by decide) hc2
    obtain ⟨h0, e0, en, v0⟩ := hstep t r h ht v1
    have hte' : ∀ alt' ∈ e, ∀ t ∈ alt', Searchable fields t := fun a ha => hte a (by simp [ha])
    have hne : rest ≠ [] := expr_written_ne_nil hrest (fun a ha t ht => (hte' a ha t ht).1)
    have hones : IsVec info.length (List.replicate db.msgs.length true) (fun _ => True) := by
      rw [hs.len]; exact isVec_ones _
    obtain ⟨h1, h2, e1, v⟩ := ih hte' fuel (by simp [bs] at hf; omega) hones (v2.orCombine v0)
    have hene : e ≠ [] := by cases hrest <;> simp
    refine ⟨h1, h2, ?_, v.congr ?_⟩
    · unfold Spaced at hsp
      simp only [wordLoop, nextWord_or hc1 hc2, hsp, e0, en, bind, Except.bind]
      simp [hne, e1]
    · intro i _
      cases e with
      | nil => exact absurd rfl hene
      | cons a e =>
        simp only [List.headD_cons, List.tail_cons, List.mem_cons, true_and]
        simp [or_assoc]


/-! ## Arguments -/

theorem keyLetter_other {c : UInt8} (h : c ∈ bs "tcfsbnpra") (k : Keys) :
    (keyLetter k c).date = k.date ∧ (keyLetter k c).size = k.size ∧ (keyLetter k c).msgid = k.msgid ∧
      (keyLetter k c).flags = k.flags := by
  have e : bs "tcfsbnpra" = [0x74, 0x63, 0x66, 0x73, 0x62, 0x6e, 0x70, 0x72, 0x61] := by decide
  rw [e] at h
  simp only [List.mem_cons, List.not_mem_nil, or_false] at h
  rcases h with rfl | rfl | rfl | rfl | rfl | rfl | rfl | rfl | rfl <;> simp [keyLetter]

/-- The letter as a list of the fields it switches on. -/
def keyField (k : Keys) : Field → Bool
  | .to => k.to | .cc => k.cc | .sender => k.«from» | .subject => k.subject | .body => k.body
  | .attachment => k.attName | .path => k.path

theorem keyLetter_field {c : UInt8} (h : c ∈ bs "tcfsbnpra") (k : Keys) (f : Field) :
    keyField (keyLetter k c) f = true ↔ (keyField k f = true ∨ LetterMeans c f) := by
  have e : bs "tcfsbnpra" = [0x74, 0x63, 0x66, 0x73, 0x62, 0x6e, 0x70, 0x72, 0x61] := by decide
  rw [e] at h
  simp only [List.mem_cons, List.not_mem_nil, or_false] at h
  have no : ∀ {c f}, (∀ (h : LetterMeans c f), False) → ∀ {b : Bool}, b = true ↔ (b = true ∨ LetterMeans c f) :=
    fun h => ⟨.inl, fun h' => h'.elim id (fun x => (h x).elim)⟩
  rcases h with rfl | rfl | rfl | rfl | rfl | rfl | rfl | rfl | rfl <;> cases f <;>
    first
    | exact no (fun h => by cases h)
    | exact ⟨fun _ => .inr (by constructor), fun _ => rfl⟩

theorem foldl_keyLetter : ∀ (letters : Text) (k : Keys), (∀ c ∈ letters, c ∈ bs "tcfsbnpra") →
    ((letters.foldl keyLetter k).date = k.date ∧ (letters.foldl keyLetter k).size = k.size ∧
      (letters.foldl keyLetter k).msgid = k.msgid ∧ (letters.foldl keyLetter k).flags = k.flags) ∧
    ∀ f, keyField (letters.foldl keyLetter k) f = true ↔ (keyField k f = true ∨ ∃ c ∈ letters, LetterMeans c f)
  | [], k, _ => by simp
  | c :: l, k, h => by
    have hc := h c (by simp)
    obtain ⟨⟨h1, h2, h3, h4⟩, h5⟩ := foldl_keyLetter l (keyLetter k c) (fun x hx => h x (by simp [hx]))
    obtain ⟨g1, g2, g3, g4⟩ := keyLetter_other hc k
    refine ⟨⟨by rw [List.foldl_cons, h1, g1], by rw [List.foldl_cons, h2, g2], by rw [List.foldl_cons, h3, g3],
      by rw [List.foldl_cons, h4, g4]⟩, ?_⟩
    intro f
    rw [List.foldl_cons, h5, keyLetter_field hc]
    simp [or_assoc]

theorem keysFor_of {k : Keys} {fields : List Field} (h : ∀ f, keyField k f = true ↔ f ∈ fields) : KeysFor k fields :=
  ⟨h .to, h .cc, h .sender, h .subject, h .body, h .attachment, h .path⟩

theorem colon : bs ":" = [0x3a] := by decide

theorem parseKeys_word {fields e s} (h : ArgWrittenAs fields e s) :
    ∃ k rest, parseKeys s = .ok (k, rest) ∧ KeysFor k fields ∧ e.WrittenAs rest ∧ k.date = false ∧ k.size = false ∧
      k.flags = false ∧ k.msgid = false := by
  cases h with
  | @letters letters _ _ s hl hf hw =>
    obtain ⟨⟨h1, h2, h3, h4⟩, h5⟩ := foldl_keyLetter letters {} hl
    refine ⟨letters.foldl keyLetter {}, s, ?_, keysFor_of ?_, hw, h1, h2, h4, h3⟩
    · have hn : (0x3a : UInt8) ∉ letters := by
        intro h; have := hl _ h; revert this; decide
      have e1 : letters ++ bs ":" ++ s = letters ++ 0x3a :: s := by simp [colon]
      have e2 : (letters ++ 0x3a :: s).drop (letters.length + 1) = s := by rw [List.drop_append]; simp
      have e3 : (letters ++ 0x3a :: s).take letters.length = letters := by simp
      rw [e1]
      simp only [parseKeys, findIdx?_append_of hn, e2, e3, h3]
      simp
    · intro f
      rw [h5, hf]
      cases f <;> simp [keyField]
  | plain hw hn =>
    refine ⟨{ body := true, subject := true, to := true, cc := true, «from» := true }, s, ?_, ?_, hw, rfl, rfl, rfl,
      rfl⟩
    · have : (0x3a : UInt8) ∉ s := by
        intro h; have := hn _ h; rw [colon] at this; simp at this
      simp only [parseKeys, findIdx?_none_of this]
    · exact keysFor_of (fun f => by cases f <;> simp [keyField])

/-! ### Limits -/

theorem takeWhile_append_stop {p : UInt8 → Bool} {d r : Text} (hd : ∀ c ∈ d, p c = true)
    (hr : ∀ c, r.head? = some c → p c = false) : (d ++ r).takeWhile p = d ∧ (d ++ r).dropWhile p = r := by
  induction d with
  | nil =>
    cases r with
    | nil => simp
    | cons c r => have := hr c rfl; simp [this]
  | cons c d ih =>
    have h1 := hd c (by simp)
    have := ih (fun x hx => hd x (by simp [hx]))
    simp [h1, this]

theorem isSpace_digit {c : UInt8} (h : isDigit c = true) : isSpace c = false ∧ c ≠ 0x2b ∧ c ≠ 0x2d ∧ c ≠ 0x3a := by
  simp only [isDigit, Bool.and_eq_true, decide_eq_true_eq, UInt8.le_iff_toNat_le] at h
  have e1 : UInt8.toNat 48 = 48 := rfl
  have e2 : UInt8.toNat 57 = 57 := rfl
  refine ⟨?_, ?_, ?_, ?_⟩
  · simp only [isSpace]
    simp only [Bool.or_eq_false_iff, beq_eq_false_iff_ne, ne_eq]
    refine ⟨?_, ?_⟩ <;> (try rintro rfl) <;> (try simp at h) <;> (try simp [UInt8.le_iff_toNat_le]; omega)
  · rintro rfl; simp at h
  · rintro rfl; simp at h
  · rintro rfl; simp at h

theorem scanInt_written {d r : Text} {n : Nat} (h0 : d ≠ []) (hd : Numeral d n)
    (hr : ∀ c, r.head? = some c → isDigit c = false) : scanInt (d ++ r) = some ((n : Int), r) := by
  obtain ⟨hdig, hdec⟩ := numeral_spec hd
  cases d with
  | nil => exact absurd rfl h0
  | cons c d =>
    obtain ⟨h1, h2, h3, _⟩ := isSpace_digit (hdig c (by simp))
    obtain ⟨t1, t2⟩ := takeWhile_append_stop hdig hr
    have hd : (c :: d ++ r).dropWhile isSpace = c :: d ++ r := by simp [h1]
    simp only [scanInt, hd]
    simp only [List.cons_append] at t1 t2 ⊢
    simp [h2, h3, t1, t2, hdec]

theorem parseSizeExpr_written {s r n} (h : SizeWritten s n) (hn : n < 2 ^ 31)
    (hr : r = [] ) : parseSizeExpr (s ++ r) = .ok (n : Int) := by
  subst hr
  rw [List.append_nil]
  have hk : ∀ {c : UInt8}, c ∈ bs "kK" → (c = 0x6b ∨ c = 0x4b) ∧ isDigit c = false := by
    intro c hc
    have e : bs "kK" = [0x6b, 0x4b] := by decide
    rw [e] at hc; simp at hc
    rcases hc with rfl | rfl <;> decide
  have hm : ∀ {c : UInt8}, c ∈ bs "mM" → ¬ (c = 0x6b ∨ c = 0x4b) ∧ (c = 0x6d ∨ c = 0x4d) ∧ isDigit c = false := by
    intro c hc
    have e : bs "mM" = [0x6d, 0x4d] := by decide
    rw [e] at hc; simp at hc
    rcases hc with rfl | rfl <;> decide
  cases h with
  | plain h0 hd =>
    have := scanInt_written (r := []) h0 hd (by simp)
    rw [List.append_nil] at this
    simp only [parseSizeExpr, this]
    have : fitsInt (n : Int) = true := by simp [fitsInt]; omega
    simp [this]
  | @kilo d m c h0 hd hc =>
    have := scanInt_written (r := [c]) h0 hd (by simpa using (hk hc).2)
    simp only [parseSizeExpr, this, if_pos (hk hc).1]
    have e1 : fitsInt (m : Int) = true := by simp [fitsInt]; omega
    have e2 : fitsInt ((m : Int) * 1024) = true := by simp [fitsInt]; omega
    simp [e1, e2]
  | @mega d m c h0 hd hc =>
    have := scanInt_written (r := [c]) h0 hd (by simpa using (hm hc).2.2)
    simp only [parseSizeExpr, this, if_neg (hm hc).1, if_pos (hm hc).2.1]
    have e1 : fitsInt (m : Int) = true := by simp [fitsInt]; omega
    have e2 : fitsInt ((m : Int) * 1048576) = true := by simp [fitsInt]; omega
    simp [e1, e2]

theorem sizeWritten_chars {s n} (h : SizeWritten s n) :
    s ≠ [] ∧ (0x2d : UInt8) ∉ s ∧ s.head? ≠ some 0x3a := by
  have key : ∀ {d : Text} {m}, d ≠ [] → Numeral d m → (0x2d : UInt8) ∉ d ∧ ∀ r : Text, (d ++ r).head? ≠ some 0x3a := by
    intro d m h0 hd
    have hdig := (numeral_spec hd).1
    refine ⟨fun h => absurd (hdig _ h) (by decide), ?_⟩
    intro r
    cases d with
    | nil => exact absurd rfl h0
    | cons c d =>
      have := (isSpace_digit (hdig c (by simp))).2.2.2
      simpa using this
  have hk : (0x2d : UInt8) ∉ bs "kK" ∧ (0x2d : UInt8) ∉ bs "mM" := by decide
  cases h with
  | plain h0 hd =>
    refine ⟨h0, (key h0 hd).1, ?_⟩
    have := (key h0 hd).2 []
    rwa [List.append_nil] at this
  | kilo h0 hd hc =>
    refine ⟨by simp, ?_, (key h0 hd).2 _⟩
    intro h
    rcases List.mem_append.1 h with h | h
    · exact (key h0 hd).1 h
    · simp at h; subst h; exact hk.1 hc
  | mega h0 hd hc =>
    refine ⟨by simp, ?_, (key h0 hd).2 _⟩
    intro h
    rcases List.mem_append.1 h with h | h
    · exact (key h0 hd).1 h
    · simp at h; subst h; exact hk.2 hc

theorem parseSizeRange_written {s a b} (h : SizeRangeWritten s a b) (ha : ∀ n, a = some n → n < 2 ^ 31)
    (hb : ∀ n, b = some n → n < 2 ^ 31) :
    parseSizeRange s = .ok (a.map Int.ofNat, b.map Int.ofNat) := by
  have hdash : bs "-" = [0x2d] := by decide
  have nocolon : ∀ {s : Text}, s.head? ≠ some 0x3a → skipColon s = s := by
    intro s hs
    cases s with
    | nil => rfl
    | cons c r => simp only [skipColon]; rw [if_neg]; intro e; apply hs; simp [e]
  have pe : ∀ {s n}, SizeWritten s n → n < 2 ^ 31 → parseSizeExpr s = .ok (n : Int) := by
    intro s n h hn
    have := parseSizeExpr_written (r := []) h hn rfl
    rwa [List.append_nil] at this
  cases h with
  | @both s t a b h1 h2 =>
    obtain ⟨g1, g2, g3⟩ := sizeWritten_chars h1
    obtain ⟨k1, _, _⟩ := sizeWritten_chars h2
    have e : s ++ bs "-" ++ t = s ++ 0x2d :: t := by simp [hdash]
    have hh : (s ++ 0x2d :: t).head? ≠ some 0x3a := by
      cases s with
      | nil => exact absurd rfl g1
      | cons c s => simpa using g3
    have e2 : (s ++ 0x2d :: t).drop (s.length + 1) = t := by rw [List.drop_append]; simp
    have e3 : (s ++ 0x2d :: t).take s.length = s := by simp
    have e4 : 0 < s.length := List.length_pos_iff.2 g1
    rw [e]
    simp only [parseSizeRange, nocolon hh, findIdx?_append_of g2, e2, e3, if_pos e4, pe h1 (ha _ rfl), pe h2 (hb _ rfl),
      bind, Except.bind]
    simp [k1, Except.map]
  | @low s a h1 =>
    obtain ⟨g1, g2, g3⟩ := sizeWritten_chars h1
    have e : s ++ bs "-" = s ++ 0x2d :: [] := by simp [hdash]
    have hh : (s ++ 0x2d :: []).head? ≠ some 0x3a := by
      cases s with
      | nil => exact absurd rfl g1
      | cons c s => simpa using g3
    have e2 : (s ++ 0x2d :: []).drop (s.length + 1) = [] := by rw [List.drop_append]; simp
    have e3 : (s ++ 0x2d :: []).take s.length = s := by simp
    have e4 : 0 < s.length := List.length_pos_iff.2 g1
    rw [e]
    simp only [parseSizeRange, nocolon hh, findIdx?_append_of g2, e2, e3, if_pos e4, pe h1 (ha _ rfl),
      bind, Except.bind]
    simp [Except.map]
  | @high t b h2 =>
    obtain ⟨k1, _, _⟩ := sizeWritten_chars h2
    have hh : (0x2d :: t : Text).head? ≠ some 0x3a := by simp
    rw [show bs "-" ++ t = 0x2d :: t by simp [hdash]]
    simp only [parseSizeRange, nocolon hh]
    simp [List.findIdx?_cons, k1, pe h2 (hb _ rfl), Except.map, bind, Except.bind]
  | none =>
    rw [hdash]
    rfl

theorem orderLimits_spec (a b : Option Int) (x : Int) :
    ((∀ s, (orderLimits (a, b)).1 = some s → s < x) ∧ (∀ e, (orderLimits (a, b)).2 = some e → x < e)) ↔
      StrictlyWithin a b x := by
  cases a <;> cases b <;> simp only [orderLimits, StrictlyWithin]
  · simp
  · simp
  · simp
  · split <;> simp <;> omega

/-! ### Flags -/

/-- What has been asked for so far. -/
def FlagWanted.Asks (w : FlagWanted) : Bool → Flag → Prop
  | true, .seen => w.posSeen = true
  | false, .seen => w.negSeen = true
  | true, .replied => w.posReplied = true
  | false, .replied => w.negReplied = true
  | true, .flagged => w.posFlagged = true
  | false, .flagged => w.negFlagged = true

theorem flagLetter_step {c f} (h : FlagLetter c f) (p : Text) (neg : Bool) (w : FlagWanted) :
    ∃ w', parseFlags (c :: p) neg w = parseFlags p false w' ∧
      ∀ b g, w'.Asks b g ↔ (w.Asks b g ∨ (b, g) = (!neg, f)) := by
  have e1 : bs "sS" = [0x73, 0x53] := by decide
  have e2 : bs "rR" = [0x72, 0x52] := by decide
  have e3 : bs "fF" = [0x66, 0x46] := by decide
  cases h with
  | seen hc =>
    rw [e1] at hc; simp at hc
    rcases hc with rfl | rfl <;> cases neg <;> refine ⟨_, rfl, ?_⟩ <;> intro b g <;> cases b <;> cases g <;>
      simp [FlagWanted.Asks]
  | replied hc =>
    rw [e2] at hc; simp at hc
    rcases hc with rfl | rfl <;> cases neg <;> refine ⟨_, rfl, ?_⟩ <;> intro b g <;> cases b <;> cases g <;>
      simp [FlagWanted.Asks]
  | flagged hc =>
    rw [e3] at hc; simp at hc
    rcases hc with rfl | rfl <;> cases neg <;> refine ⟨_, rfl, ?_⟩ <;> intro b g <;> cases b <;> cases g <;>
      simp [FlagWanted.Asks]

theorem parseFlags_written {l s} (h : FlagsWritten l s) : ∀ (w : FlagWanted) b g,
    (parseFlags s false w).Asks b g ↔ (w.Asks b g ∨ (b, g) ∈ l) := by
  induction h with
  | nil => intro w b g; simp [parseFlags]
  | @pos c f l s hc _ ih =>
    intro w b g
    obtain ⟨w', e, hw⟩ := flagLetter_step hc s false w
    rw [e, ih, hw]
    simp [or_assoc]
  | @neg c f l s hc _ ih =>
    intro w b g
    obtain ⟨w', e, hw⟩ := flagLetter_step hc s true w
    have : parseFlags (0x2d :: c :: s) false w = parseFlags (c :: s) true w := by simp [parseFlags]
    rw [this, e, ih, hw]
    simp [or_assoc]

theorem findFlags_ok {db : ReadDb} {info : List Info} (hs : Shows db info) {l s} (h : FlagsWritten l s) :
    IsVec info.length (findFlags db s) (fun i => ∃ x, info[i]? = some x ∧ (Cond.flags l).Holds x) := by
  have hw := parseFlags_written h {}
  have v := IsVec.map db.msgs (fun m =>
    (!(parseFlags s false {}).posSeen || m.typeAndFlags &&& FLAG_SEEN != 0) &&
    (!(parseFlags s false {}).negSeen || !(m.typeAndFlags &&& FLAG_SEEN != 0)) &&
    (!(parseFlags s false {}).posReplied || m.typeAndFlags &&& FLAG_REPLIED != 0) &&
    (!(parseFlags s false {}).negReplied || !(m.typeAndFlags &&& FLAG_REPLIED != 0)) &&
    (!(parseFlags s false {}).posFlagged || m.typeAndFlags &&& FLAG_FLAGGED != 0) &&
    (!(parseFlags s false {}).negFlagged || !(m.typeAndFlags &&& FLAG_FLAGGED != 0)))
  rw [hs.len] at v
  refine v.congr ?_
  intro i hi
  have h1 : db.msgs[i]? = some (db.msgs[i]'(by rw [hs.len]; exact hi)) := by simp [hs.len, hi]
  have h2 : info[i]? = some info[i] := by simp [hi]
  have hm := hs.each i _ _ h1 h2
  rw [h1, h2]
  simp only [Option.some.injEq, exists_eq_left', hm.seen, hm.replied, hm.flagged, Cond.Holds]
  have p1 := hw true .seen; have p2 := hw false .seen; have p3 := hw true .replied
  have p4 := hw false .replied; have p5 := hw true .flagged; have p6 := hw false .flagged
  simp only [FlagWanted.Asks, Bool.false_eq_true, false_or] at p1 p2 p3 p4 p5 p6
  simp only [Bool.and_eq_true, Bool.or_eq_true, Bool.not_eq_true', Bool.eq_false_iff, ne_eq, p1, p2, p3, p4, p5, p6]
  constructor
  · rintro ⟨⟨⟨⟨⟨a1, a2⟩, a3⟩, a4⟩, a5⟩, a6⟩ ⟨b, g⟩ hbg
    cases b <;> cases g <;> simp_all
  · intro h
    have q : ∀ b g, (b, g) ∉ l ∨ info[i].has g = b := by
      intro b g
      by_cases hbg : (b, g) ∈ l
      · exact .inr (h _ hbg)
      · exact .inl hbg
    have q1 := q true .seen; have q2 := q false .seen; have q3 := q true .replied
    have q4 := q false .replied; have q5 := q true .flagged; have q6 := q false .flagged
    simp only [Bool.eq_false_iff, ne_eq] at q2 q4 q6
    exact ⟨⟨⟨⟨⟨q1, q2⟩, q3⟩, q4⟩, q5⟩, q6⟩

end Mairix
