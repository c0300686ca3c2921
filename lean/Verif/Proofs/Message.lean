import Verif.Spec.Message
import Verif.Props.Tokenise
import Verif.Proofs.TokHistory2

/-! Tokenising a message adds exactly its words to the tables. -/

namespace Mairix
open Spec

/-- What the tables know of one message. -/
structure MsgWords where
  words : Field → List Text
  ids : List (Text × Bool)

/-- The tables are the index of the messages `ix`. -/
structure TablesRep (hash : Text → Nat) (d : Tables) (ix : List MsgWords) : Prop where
  to : RepMail hash d.to (ix.map (·.words .to))
  cc : RepMail hash d.cc (ix.map (·.words .cc))
  sender : RepMail hash d.from (ix.map (·.words .sender))
  subject : RepMail hash d.subject (ix.map (·.words .subject))
  body : RepMail hash d.body (ix.map (·.words .body))
  attachment : RepMail hash d.attachmentName (ix.map (·.words .attachment))
  ids : RepIds hash d.msgIds (ix.map (·.ids))

theorem addWord_last (w : Text) (ms : Mail) (ws : List Text) : addWord w (ms ++ [ws]) = some (ms ++ [w :: ws]) := by
  induction ms with
  | nil => rfl
  | cons m ms ih =>
    cases ms with
    | nil => simp [addWord]
    | cons m' ms => simp only [List.cons_append] at ih ⊢; simp [addWord, ih]

theorem addId_last (p : Text × Bool) (ms : IdMail) (ws : List (Text × Bool)) :
    addId p (ms ++ [ws]) = some (ms ++ [p :: ws]) := by
  induction ms with
  | nil => rfl
  | cons m ms ih =>
    cases ms with
    | nil => simp [addId]
    | cons m' ms => simp only [List.cons_append] at ih ⊢; simp [addId, ih]

theorem addWords_rep {hash : Text → Nat} : ∀ (words : List Text) {t : Table Matches} {ms : Mail} {ws : List Text},
    RepMail hash t (ms ++ [ws]) → ms.length < maxMsgs →
    ∃ t' ws', addWords hash ms.length words t = .ok t' ∧ RepMail hash t' (ms ++ [ws']) ∧
      ∀ w, w ∈ ws' ↔ w ∈ ws ∨ ∃ v ∈ words, w = lower v := by
  intro words
  induction words with
  | nil => intro t ms ws h _; exact ⟨t, ws, rfl, h, by simp⟩
  | cons v words ih =>
    intro t ms ws h hl
    obtain ⟨t1, e1, h1⟩ := h.addWord (w := v) (addWord_last (lower v) ms ws) (by simp; omega)
    obtain ⟨t2, ws', e2, h2, h3⟩ := ih h1 hl
    refine ⟨t2, ws', ?_, h2, ?_⟩
    · have : (ms ++ [ws]).length - 1 = ms.length := by simp
      rw [this] at e1
      simp only [addWords, e1, bind, Except.bind, e2]
    · intro w
      rw [h3]
      simp only [List.mem_cons]
      grind

theorem addIds_rep {hash : Text → Nat} {own : Bool} : ∀ (words : List Text) {t : Table Matches2} {ms : IdMail}
    {ws : List (Text × Bool)}, RepIds hash t (ms ++ [ws]) → ms.length < maxMsgs →
    ∃ t' ws', addIds hash ms.length own words t = .ok t' ∧ RepIds hash t' (ms ++ [ws']) ∧
      ∀ p, p ∈ ws' ↔ p ∈ ws ∨ ∃ v ∈ words, p = (lower v, own) := by
  intro words
  induction words with
  | nil => intro t ms ws h _; exact ⟨t, ws, rfl, h, by simp⟩
  | cons v words ih =>
    intro t ms ws h hl
    obtain ⟨t1, e1, h1⟩ := h.addId (w := v) (own := own) (addId_last (lower v, own) ms ws) (by simp; omega)
    obtain ⟨t2, ws', e2, h2, h3⟩ := ih h1 hl
    refine ⟨t2, ws', ?_, h2, ?_⟩
    · have : (ms ++ [ws]).length - 1 = ms.length := by simp
      rw [this] at e1
      simp only [addIds, e1, bind, Except.bind, e2]
    · intro w
      rw [h3]
      simp only [List.mem_cons]
      grind

theorem tokeniseString_rep {hash : Text → Nat} (s : Text) {t : Table Matches} {ms : Mail} {ws : List Text}
    (h : RepMail hash t (ms ++ [ws])) (hl : ms.length < maxMsgs) :
    (∃ t' ws', tokeniseString hash ms.length t s 1 = .ok t' ∧ RepMail hash t' (ms ++ [ws']) ∧
      ∀ w, w ∈ ws' ↔ w ∈ ws ∨ ∃ v, MaximalRun WordChar s v ∧ w = lower v) ∧
    (∃ t' ws', tokeniseString hash ms.length t s 2 = .ok t' ∧ RepMail hash t' (ms ++ [ws']) ∧
      ∀ w, w ∈ ws' ↔ w ∈ ws ∨ ∃ v, MaximalRun AddrChar s v ∧ w = lower v) := by
  obtain ⟨⟨l1, a1, a2, _⟩, l2, b1, b2, _⟩ := C06_words hash ms.length t s
  constructor
  · obtain ⟨t', ws', e, h1, h2⟩ := addWords_rep l1 h hl
    exact ⟨t', ws', by rw [a1, e], h1, fun w => by rw [h2]; simp only [a2]⟩
  · obtain ⟨t', ws', e, h1, h2⟩ := addWords_rep l2 h hl
    exact ⟨t', ws', by rw [b1, e], h1, fun w => by rw [h2]; simp only [b2]⟩

theorem tokeniseAddress_rep {hash : Text → Nat} (o : Option Text) {t : Table Matches} {ms : Mail} {ws : List Text}
    (h : RepMail hash t (ms ++ [ws])) (hl : ms.length < maxMsgs) :
    ∃ t' ws', tokeniseAddress hash ms.length t o = .ok t' ∧ RepMail hash t' (ms ++ [ws']) ∧
      ∀ w, w ∈ ws' ↔ w ∈ ws ∨ ∃ s v, o = some s ∧ (MaximalRun WordChar s v ∨ MaximalRun AddrChar s v) ∧ w = lower v := by
  cases o with
  | none => exact ⟨t, ws, rfl, h, by simp⟩
  | some s =>
    obtain ⟨t1, w1, e1, h1, m1⟩ := (tokeniseString_rep s h hl).1
    obtain ⟨t2, w2, e2, h2, m2⟩ := (tokeniseString_rep s h1 hl).2
    refine ⟨t2, w2, by simp only [tokeniseAddress, e1, bind, Except.bind, e2], h2, ?_⟩
    intro w
    rw [m2, m1]
    constructor
    · rintro ((h | ⟨v, a, b⟩) | ⟨v, a, b⟩)
      · exact .inl h
      · exact .inr ⟨s, v, rfl, .inl a, b⟩
      · exact .inr ⟨s, v, rfl, .inr a, b⟩
    · rintro (h | ⟨s', v, a, b | b, c⟩)
      · exact .inl (.inl h)
      · cases a; exact .inl (.inr ⟨v, b, c⟩)
      · cases a; exact .inr ⟨v, b, c⟩

theorem tokeniseSubject_rep {hash : Text → Nat} (o : Option Text) {t : Table Matches} {ms : Mail} {ws : List Text}
    (h : RepMail hash t (ms ++ [ws])) (hl : ms.length < maxMsgs) :
    ∃ t' ws', tokeniseSubject hash ms.length t o = .ok t' ∧ RepMail hash t' (ms ++ [ws']) ∧
      ∀ w, w ∈ ws' ↔ w ∈ ws ∨ ∃ s v, o = some s ∧ MaximalRun WordChar s v ∧ w = lower v := by
  cases o with
  | none => exact ⟨t, ws, rfl, h, by simp⟩
  | some s =>
    obtain ⟨t1, w1, e1, h1, m1⟩ := (tokeniseString_rep s h hl).1
    exact ⟨t1, w1, e1, h1, fun w => by rw [m1]; simp⟩

theorem tokeniseFilename_rep {hash : Text → Nat} (o : Option Text) {t : Table Matches} {ms : Mail} {ws : List Text}
    (h : RepMail hash t (ms ++ [ws])) (hl : ms.length < maxMsgs) :
    ∃ t' ws', tokeniseFilename hash ms.length t o = .ok t' ∧ RepMail hash t' (ms ++ [ws']) ∧
      ∀ w, w ∈ ws' ↔ w ∈ ws ∨ ∃ s, o = some s ∧ w = lower s := by
  cases o with
  | none => exact ⟨t, ws, rfl, h, by simp⟩
  | some s =>
    obtain ⟨t1, e1, h1⟩ := h.addWord (w := s) (addWord_last (lower s) ms ws) (by simp; omega)
    have : (ms ++ [ws]).length - 1 = ms.length := by simp
    rw [this] at e1
    refine ⟨t1, _, e1, h1, fun w => by simp only [List.mem_cons]; grind⟩

theorem addAngledTerms_rep {hash : Text → Nat} (own : Bool) (o : Option Text) {t : Table Matches2} {ms : IdMail}
    {ws : List (Text × Bool)} (h : RepIds hash t (ms ++ [ws])) (hl : ms.length < maxMsgs) :
    ∃ t' ws', addAngledTerms hash ms.length t own o = .ok t' ∧ RepIds hash t' (ms ++ [ws']) ∧
      ∀ p, p ∈ ws' ↔ p ∈ ws ∨ ∃ s v, o = some s ∧ Angled s v ∧ p = (lower v, own) := by
  cases o with
  | none => exact ⟨t, ws, rfl, h, by simp⟩
  | some s =>
    obtain ⟨ts, e, ha⟩ := C42_angled hash ms.length t own s
    obtain ⟨t', ws', e', h1, h2⟩ := addIds_rep (own := own) ts h hl
    refine ⟨t', ws', by rw [e, e'], h1, fun p => ?_⟩
    rw [h2]
    constructor
    · rintro (h | ⟨v, a, b⟩)
      · exact .inl h
      · exact .inr ⟨s, v, rfl, ⟨ts, ha, a⟩, b⟩
    · rintro (h | ⟨s', v, a, ⟨ts', b, b'⟩, c⟩)
      · exact .inl h
      · cases a
        have := C42_angled_unique b ha
        subst this
        exact .inr ⟨v, b', c⟩

/-- What a step that adds the words `W` and ids `I` to the last message does. -/
def Adds (hash : Text → Nat) (ix : List MsgWords) (step : Nat → Tables → Res Tables)
    (W : Field → Text → Prop) (I : Bool → Text → Prop) : Prop :=
  ∀ (d : Tables) (x : MsgWords), TablesRep hash d (ix ++ [x]) →
    ∃ d' x', step ix.length d = .ok d' ∧ TablesRep hash d' (ix ++ [x']) ∧
      (∀ f w, w ∈ x'.words f ↔ w ∈ x.words f ∨ W f w) ∧ ∀ w own, (w, own) ∈ x'.ids ↔ (w, own) ∈ x.ids ∨ I own w

def setField (x : MsgWords) (f : Field) (ws : List Text) : MsgWords :=
  { x with words := fun g => if g = f then ws else x.words g }

theorem setField_self (x : MsgWords) (f : Field) (ws : List Text) : (setField x f ws).words f = ws := by simp [setField]
theorem setField_ne (x : MsgWords) {f g : Field} (ws : List Text) (h : g ≠ f) :
    (setField x f ws).words g = x.words g := by simp [setField, h]
theorem setField_ids (x : MsgWords) (f : Field) (ws : List Text) : (setField x f ws).ids = x.ids := rfl

mutual
theorem tokeniseMessage_rep {hash : Text → Nat} {ix : List MsgWords} (hl : ix.length < maxMsgs) : (m : Rfc822) →
    Adds hash ix (fun i d => tokeniseMessage hash i d m) (HasWord m) (HasId m)
  | .mk h atts => by
    intro d x hd
    have L : ∀ f : Field, ix.length = (ix.map (fun y : MsgWords => y.words f)).length := fun f => by simp
    have L' : ix.length = (ix.map (fun y : MsgWords => y.ids)).length := by simp
    have A : ∀ f (ws : List Text), (ix ++ [setField x f ws]).map (·.words f) = ix.map (·.words f) ++ [ws] := by
      intro f ws; simp [setField]
    have M : ∀ f (y : MsgWords), (ix ++ [y]).map (·.words f) = ix.map (·.words f) ++ [y.words f] := by
      intro f y; simp
    have M' : ∀ y : MsgWords, (ix ++ [y]).map (·.ids) = ix.map (·.ids) ++ [y.ids] := by intro y; simp
    obtain ⟨t1, w1, e1, r1, m1⟩ := tokeniseAddress_rep h.to (M .to x ▸ hd.to) (by rw [← L]; exact hl)
    obtain ⟨t2, w2, e2, r2, m2⟩ := tokeniseAddress_rep h.cc (M .cc x ▸ hd.cc) (by rw [← L]; exact hl)
    obtain ⟨t3, w3, e3, r3, m3⟩ := tokeniseAddress_rep h.from (M .sender x ▸ hd.sender) (by rw [← L]; exact hl)
    obtain ⟨t4, w4, e4, r4, m4⟩ := tokeniseSubject_rep h.subject (M .subject x ▸ hd.subject) (by rw [← L]; exact hl)
    rw [← L] at e1 e2 e3 e4
    let x1 : MsgWords := { x with words := fun g => match g with
      | .to => w1 | .cc => w2 | .sender => w3 | .subject => w4 | g => x.words g }
    have hd1 : TablesRep hash { d with to := t1, cc := t2, «from» := t3, subject := t4 } (ix ++ [x1]) := by
      constructor
      · rw [M]; exact r1
      · rw [M]; exact r2
      · rw [M]; exact r3
      · rw [M]; exact r4
      · rw [M]; exact M .body x ▸ hd.body
      · rw [M]; exact M .attachment x ▸ hd.attachment
      · rw [M']; exact M' x ▸ hd.ids
    obtain ⟨d2, x2, e5, hd2, m5, i5⟩ := tokeniseAttachments_rep hl atts _ x1 hd1
    obtain ⟨t6, w6, e6, r6, m6⟩ := addAngledTerms_rep true h.messageId (M' x2 ▸ hd2.ids) (by rw [← L']; exact hl)
    obtain ⟨t7, w7, e7, r7, m7⟩ := addAngledTerms_rep false h.inReplyTo r6 (by rw [← L']; exact hl)
    obtain ⟨t8, w8, e8, r8, m8⟩ := addAngledTerms_rep false h.references r7 (by rw [← L']; exact hl)
    rw [← L'] at e6 e7 e8
    refine ⟨{ d2 with msgIds := t8 }, { x2 with ids := w8 }, ?_, ?_, ?_, ?_⟩
    · simp only [tokeniseMessage, bind, Except.bind, e1, e2, e3, e4]
      simp only [e5, e6, e7, e8]
    · constructor
      · rw [M]; exact M .to x2 ▸ hd2.to
      · rw [M]; exact M .cc x2 ▸ hd2.cc
      · rw [M]; exact M .sender x2 ▸ hd2.sender
      · rw [M]; exact M .subject x2 ▸ hd2.subject
      · rw [M]; exact M .body x2 ▸ hd2.body
      · rw [M]; exact M .attachment x2 ▸ hd2.attachment
      · rw [M']; exact r8
    · intro f w
      show w ∈ x2.words f ↔ _
      rw [m5]
      constructor
      · rintro (h1 | h1)
        · cases f with
          | to =>
            rcases (m1 w).1 h1 with h2 | ⟨s, v, a, b, rfl⟩
            · exact .inl h2
            · exact .inr (.to a b)
          | cc =>
            rcases (m2 w).1 h1 with h2 | ⟨s, v, a, b, rfl⟩
            · exact .inl h2
            · exact .inr (.cc a b)
          | sender =>
            rcases (m3 w).1 h1 with h2 | ⟨s, v, a, b, rfl⟩
            · exact .inl h2
            · exact .inr (.sender a b)
          | subject =>
            rcases (m4 w).1 h1 with h2 | ⟨s, v, a, b, rfl⟩
            · exact .inl h2
            · exact .inr (.subject a b)
          | body => exact .inl h1
          | attachment => exact .inl h1
          | path => exact .inl h1
        · exact .inr (.part h1)
      · rintro (h1 | h1)
        · left
          cases f with
          | to => exact (m1 w).2 (.inl h1)
          | cc => exact (m2 w).2 (.inl h1)
          | sender => exact (m3 w).2 (.inl h1)
          | subject => exact (m4 w).2 (.inl h1)
          | body => exact h1
          | attachment => exact h1
          | path => exact h1
        · cases h1 with
          | to a b => exact .inl ((m1 _).2 (.inr ⟨_, _, a, b, rfl⟩))
          | cc a b => exact .inl ((m2 _).2 (.inr ⟨_, _, a, b, rfl⟩))
          | sender a b => exact .inl ((m3 _).2 (.inr ⟨_, _, a, b, rfl⟩))
          | subject a b => exact .inl ((m4 _).2 (.inr ⟨_, _, a, b, rfl⟩))
          | part a => exact .inr a
    · intro w own
      show (w, own) ∈ w8 ↔ _
      rw [m8, m7, m6, i5]
      constructor
      · rintro (((( h1 | h1) | ⟨s, v, a, b, c⟩) | ⟨s, v, a, b, c⟩) | ⟨s, v, a, b, c⟩)
        · exact .inl h1
        · exact .inr (.part h1)
        · cases c; exact .inr (.own a b)
        · cases c; exact .inr (.replyTo a b)
        · cases c; exact .inr (.reference a b)
      · rintro (h1 | h1)
        · exact .inl (.inl (.inl (.inl h1)))
        · cases h1 with
          | own a b => exact .inl (.inl (.inr ⟨_, _, a, b, rfl⟩))
          | replyTo a b => exact .inl (.inr ⟨_, _, a, b, rfl⟩)
          | reference a b => exact .inr ⟨_, _, a, b, rfl⟩
          | part a => exact .inl (.inl (.inl (.inr a)))

theorem tokeniseAttachments_rep {hash : Text → Nat} {ix : List MsgWords} (hl : ix.length < maxMsgs) :
    (a : Attachments) → Adds hash ix (fun i d => tokeniseAttachments hash i d a) (PartHasWord a) (PartHasId a)
  | .nil => by
    intro d x hd
    refine ⟨d, x, rfl, hd, fun f w => ⟨.inl, ?_⟩, fun w own => ⟨.inl, ?_⟩⟩
    · rintro (h | h)
      · exact h
      · cases h
    · rintro (h | h)
      · exact h
      · cases h
  | .cons body filename rest => by
    intro d x hd
    have L : ∀ f : Field, ix.length = (ix.map (fun y : MsgWords => y.words f)).length := fun f => by simp
    have M : ∀ f (y : MsgWords), (ix ++ [y]).map (·.words f) = ix.map (·.words f) ++ [y.words f] := by
      intro f y; simp
    have M' : ∀ y : MsgWords, (ix ++ [y]).map (·.ids) = ix.map (·.ids) ++ [y.ids] := by intro y; simp
    obtain ⟨d1, x1, e1, hd1, m1, i1⟩ := tokeniseBody_rep hl body d x hd
    obtain ⟨t2, w2, e2, r2, m2⟩ := tokeniseFilename_rep filename (M .attachment x1 ▸ hd1.attachment) (by rw [← L]; exact hl)
    rw [← L] at e2
    have hd2 : TablesRep hash { d1 with attachmentName := t2 } (ix ++ [setField x1 .attachment w2]) := by
      constructor
      · rw [M]; exact M .to x1 ▸ hd1.to
      · rw [M]; exact M .cc x1 ▸ hd1.cc
      · rw [M]; exact M .sender x1 ▸ hd1.sender
      · rw [M]; exact M .subject x1 ▸ hd1.subject
      · rw [M]; exact M .body x1 ▸ hd1.body
      · rw [M]; exact r2
      · rw [M']; exact M' x1 ▸ hd1.ids
    obtain ⟨d3, x3, e3, hd3, m3, i3⟩ := tokeniseAttachments_rep hl rest _ _ hd2
    refine ⟨d3, x3, ?_, hd3, ?_, ?_⟩
    · simp only [tokeniseAttachments, bind, Except.bind]
      simp only at e1
      simp only [e1, e2, e3]
    · intro f w
      rw [m3]
      have key : w ∈ (setField x1 .attachment w2).words f ↔ w ∈ x1.words f ∨
          (f = .attachment ∧ ∃ s, filename = some s ∧ w = lower s) := by
        by_cases hf : f = .attachment
        · subst hf; rw [setField_self, m2]; simp
        · rw [setField_ne _ _ hf]; simp [hf]
      rw [key, m1]
      constructor
      · rintro (((h | h) | ⟨rfl, s, rfl, rfl⟩) | h)
        · exact .inl h
        · refine .inr ?_
          cases body with
          | plain b => obtain ⟨rfl, v, a, rfl⟩ := h; exact .plain a
          | html b => obtain ⟨rfl, v, a, rfl⟩ := h; exact .html a
          | message m => exact .embedded h
          | noMessage => exact h.elim
          | other => exact h.elim
        · exact .inr .filename
        · exact .inr (.rest h)
      · rintro (h | h)
        · exact .inl (.inl (.inl h))
        · cases h with
          | plain a => exact .inl (.inl (.inr ⟨rfl, _, a, rfl⟩))
          | html a => exact .inl (.inl (.inr ⟨rfl, _, a, rfl⟩))
          | embedded a => exact .inl (.inl (.inr a))
          | filename => exact .inl (.inr ⟨rfl, _, rfl, rfl⟩)
          | rest a => exact .inr a
    · intro w own
      rw [i3, setField_ids, i1]
      constructor
      · rintro ((h | h) | h)
        · exact .inl h
        · refine .inr ?_
          cases body with
          | plain b => exact h.elim
          | html b => exact h.elim
          | message m => exact .embedded h
          | noMessage => exact h.elim
          | other => exact h.elim
        · exact .inr (.rest h)
      · rintro (h | h)
        · exact .inl (.inl h)
        · cases h with
          | embedded a => exact .inl (.inr a)
          | rest a => exact .inr a

theorem tokeniseBody_rep {hash : Text → Nat} {ix : List MsgWords} (hl : ix.length < maxMsgs) : (b : Body) →
    Adds hash ix (fun i d => tokeniseBody hash i d b)
      (fun f w => match b with
        | .plain s => f = .body ∧ ∃ v, MaximalRun WordChar s v ∧ w = lower v
        | .html s => f = .body ∧ ∃ v, MaximalRun WordChar (stripTags s) v ∧ w = lower v
        | .message m => HasWord m f w
        | _ => False)
      (fun own w => match b with
        | .message m => HasId m own w
        | _ => False)
  | .plain s => by
    intro d x hd
    have M : ∀ f (y : MsgWords), (ix ++ [y]).map (·.words f) = ix.map (·.words f) ++ [y.words f] := by
      intro f y; simp
    have M' : ∀ y : MsgWords, (ix ++ [y]).map (·.ids) = ix.map (·.ids) ++ [y.ids] := by intro y; simp
    obtain ⟨t1, w1, e1, r1, m1⟩ := (tokeniseString_rep s (M .body x ▸ hd.body) (by simpa using hl)).1
    rw [List.length_map] at e1
    refine ⟨{ d with body := t1 }, setField x .body w1, ?_, ?_, ?_, ?_⟩
    · simp only [tokeniseBody, bind, Except.bind, e1]
    · constructor
      · rw [M]; exact M .to x ▸ hd.to
      · rw [M]; exact M .cc x ▸ hd.cc
      · rw [M]; exact M .sender x ▸ hd.sender
      · rw [M]; exact M .subject x ▸ hd.subject
      · rw [M]; exact r1
      · rw [M]; exact M .attachment x ▸ hd.attachment
      · rw [M']; exact M' x ▸ hd.ids
    · intro f w
      by_cases hf : f = .body
      · subst hf; rw [setField_self, m1]; simp
      · rw [setField_ne _ _ hf]; simp [hf]
    · intro w own; simp [setField]
  | .html s => by
    intro d x hd
    have M : ∀ f (y : MsgWords), (ix ++ [y]).map (·.words f) = ix.map (·.words f) ++ [y.words f] := by
      intro f y; simp
    have M' : ∀ y : MsgWords, (ix ++ [y]).map (·.ids) = ix.map (·.ids) ++ [y.ids] := by intro y; simp
    obtain ⟨l, a1, a2, _⟩ := C07_html hash ix.length d.body s
    obtain ⟨t1, w1, e1, r1, m1⟩ := addWords_rep l (M .body x ▸ hd.body) (by simpa using hl)
    rw [List.length_map] at e1
    rw [e1] at a1
    refine ⟨{ d with body := t1 }, setField x .body w1, ?_, ?_, ?_, ?_⟩
    · simp only [tokeniseBody, bind, Except.bind, a1]
    · constructor
      · rw [M]; exact M .to x ▸ hd.to
      · rw [M]; exact M .cc x ▸ hd.cc
      · rw [M]; exact M .sender x ▸ hd.sender
      · rw [M]; exact M .subject x ▸ hd.subject
      · rw [M]; exact r1
      · rw [M]; exact M .attachment x ▸ hd.attachment
      · rw [M']; exact M' x ▸ hd.ids
    · intro f w
      by_cases hf : f = .body
      · subst hf; rw [setField_self, m1]; simp only [a2]; simp
      · rw [setField_ne _ _ hf]; simp [hf]
    · intro w own; simp [setField]
  | .message m => tokeniseMessage_rep hl m
  | .noMessage => by
    intro d x hd
    exact ⟨d, x, rfl, hd, by simp, by simp⟩
  | .other => by
    intro d x hd
    exact ⟨d, x, rfl, hd, by simp, by simp⟩
end

end Mairix
