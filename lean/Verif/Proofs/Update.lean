import Verif.Proofs.Lookup
import Verif.Proofs.Maildir
import Verif.Proofs.Message
import Verif.Proofs.Threading

/-! The single-file part of an update. -/

namespace Mairix
open Spec

/-- The message is in a file of its own or on an IMAP server. -/
def listedSrc (m : Msg) : Bool := (Place m).isSome

theorem matchOne_spec {w : World} {fast : Bool} {l : List Listed} (hs : l.Pairwise ListedBefore) (mboxen : List Mbox) (m : Msg) :
    ∃ r, matchOne w fast l m = .ok r ∧
      (∀ k, r = some k → stays w fast l mboxen m = true ∧ ∃ e, Place m = some e ∧ l[k]? = some e) ∧
      (r = none → listedSrc m = true → stays w fast l mboxen m = false) := by
  obtain ⟨src, date, tid, seen, replied, flagged⟩ := m
  cases src with
  | dead => exact ⟨none, rfl, by simp, by simp [listedSrc, Place]⟩
  | mbox fi mi => exact ⟨none, rfl, by simp, by simp [listedSrc, Place]⟩
  | imap p =>
    obtain ⟨r, e, h1, h2⟩ := lookupMsgpath_spec hs p .imap
    refine ⟨r, e, ?_, ?_⟩
    · intro k hk
      refine ⟨?_, _, rfl, h1 k hk⟩
      simp only [stays, decide_eq_true_eq]
      exact List.mem_of_getElem? (h1 k hk)
    · intro hr _
      simp only [stays, decide_eq_false_iff_not]
      exact h2 hr
  | file p mtime size =>
    obtain ⟨r, e, h1, h2⟩ := lookupMsgpath_spec hs p .file
    simp only [matchOne, e, bind, Except.bind]
    cases r with
    | none =>
      refine ⟨none, rfl, by simp, ?_⟩
      intro _ _
      simp [stays, h2 rfl]
    | some k =>
      have hk := h1 k rfl
      have hmem : (⟨.file, p⟩ : Listed) ∈ l := List.mem_of_getElem? hk
      cases fast with
      | true =>
        refine ⟨some k, rfl, ?_, by simp⟩
        intro k' hk'
        cases hk'
        exact ⟨by simp [stays, hmem], _, rfl, hk⟩
      | false =>
        simp only [Bool.false_eq_true, if_false, hk, doStat]
        cases hst : w.stat p with
        | bad => exact ⟨none, rfl, by simp, fun _ _ => by simp [stays, modified, hst]⟩
        | dir => exact ⟨none, rfl, by simp, fun _ _ => by simp [stays, modified, hst]⟩
        | file t s =>
          simp only
          by_cases ht : t = mtime
          · subst ht
            refine ⟨some k, by rw [if_pos rfl], ?_, by simp⟩
            intro k' hk'
            cases hk'
            exact ⟨by simp [stays, hmem, modified, hst], _, rfl, hk⟩
          · exact ⟨none, by rw [if_neg ht], by simp, fun _ _ => by simp [stays, modified, hst, ht]⟩

theorem sorted_inj {l : List Listed} (hs : l.Pairwise ListedBefore) {i j : Nat} {e : Listed} (h1 : l[i]? = some e)
    (h2 : l[j]? = some e) : i = j := by
  rcases Nat.lt_trichotomy i j with h | h | h
  · exact absurd (sorted_get hs h h1 h2) listedBefore_irrefl
  · exact h
  · exact absurd (sorted_get hs h h2 h1) listedBefore_irrefl

theorem matchAll_spec {w : World} {fast : Bool} {l : List Listed} (hs : l.Pairwise ListedBefore) (mboxen : List Mbox) :
    ∀ msgs : List Msg, ∃ used, matchAll w fast l msgs =
        .ok (msgs.map (fun m => listedSrc m && stays w fast l mboxen m), used) ∧
      ∀ (k : Nat) e, l[k]? = some e → (k ∈ used ↔ e ∈ keptPlaces w fast l mboxen msgs) := by
  intro msgs
  induction msgs with
  | nil => exact ⟨[], rfl, by simp [keptPlaces]⟩
  | cons m ms ih =>
    obtain ⟨used, e, hu⟩ := ih
    obtain ⟨r, er, h1, h2⟩ := matchOne_spec (w := w) (fast := fast) hs mboxen m
    simp only [matchAll, er, e, bind, Except.bind]
    cases r with
    | none =>
      have hf : (listedSrc m && stays w fast l mboxen m) = false := by
        cases hl : listedSrc m with
        | false => rfl
        | true => simp [h2 rfl hl]
      refine ⟨used, by simp [hf], ?_⟩
      intro k e' hk
      rw [hu k e' hk]
      simp only [keptPlaces, List.filter_cons]
      split
      · next hst =>
        have : listedSrc m = false := by
          cases hl : listedSrc m with
          | false => rfl
          | true => rw [hl, hst] at hf; cases hf
        have : Place m = none := by
          cases hp : Place m with
          | none => rfl
          | some _ => simp [listedSrc, hp] at this
        rw [List.filterMap_cons, this]
      · rfl
    | some k0 =>
      obtain ⟨a, e0, b, c⟩ := h1 k0 rfl
      refine ⟨k0 :: used, by simp [a, listedSrc, b], ?_⟩
      intro k e' hk
      rw [List.mem_cons, hu k e' hk]
      simp only [keptPlaces, List.filter_cons, a, if_true, List.filterMap_cons, b, List.mem_cons]
      constructor
      · rintro (rfl | h)
        · rw [hk] at c; cases c; exact .inl rfl
        · exact .inr h
      · rintro (rfl | h)
        · exact .inl (sorted_inj hs hk c)
        · exact .inr h

/-- Every mbox message refers to an mbox there is. -/
def RefsOk (mboxen : List Mbox) (msgs : List Msg) : Prop :=
  ∀ m ∈ msgs, ∀ fi mi, m.src = .mbox fi mi → fi < mboxen.length

theorem weedAll_spec {w : World} {fast : Bool} {l : List Listed} {mboxen : List Mbox} :
    ∀ msgs : List Msg, RefsOk mboxen msgs →
      weedAll mboxen (msgs.map (fun m => listedSrc m && stays w fast l mboxen m)) msgs =
        .ok (msgs.map (aged w fast l mboxen),
          msgs.any fun m => decide (m.src ≠ .dead) && !stays w fast l mboxen m) := by
  intro msgs
  induction msgs with
  | nil => intro _; rfl
  | cons m ms ih =>
    intro hr
    have hrest := ih (fun m' h' => hr m' (List.mem_cons_of_mem _ h'))
    simp only [List.map_cons, weedAll, hrest, bind, Except.bind]
    have key : weedOne mboxen (listedSrc m && stays w fast l mboxen m) m =
        .ok (aged w fast l mboxen m, decide (m.src ≠ .dead) && !stays w fast l mboxen m) := by
      have hr0 := hr m (List.mem_cons_self ..)
      obtain ⟨src, date, tid, seen, replied, flagged⟩ := m
      cases src with
      | dead => simp [weedOne, aged, stays]
      | file p t s =>
        simp only [weedOne, listedSrc, Place, Option.isSome_some, Bool.true_and, aged]
        split <;> simp_all
      | imap p =>
        simp only [weedOne, listedSrc, Place, Option.isSome_some, Bool.true_and, aged]
        split <;> simp_all
      | mbox fi mi =>
        have hlt := hr0 fi mi rfl
        have hg : mboxen[fi]? = some mboxen[fi] := by simp [hlt]
        simp only [weedOne, aged, stays, hg]
        cases hp : mboxen[fi].path with
        | none => simp
        | some p =>
          simp only [reduceCtorEq, false_or, Option.isSome_some, Bool.true_and, decide_eq_true_eq]
          by_cases hmi : mi < mboxen[fi].nOldValid
          · simp [hmi]
          · simp [hmi]
    simp only [key, List.any_cons]

theorem addNew_spec {w : World} {used : List Nat} {kept : List Listed} : ∀ (l : List Listed) (i : Nat),
    (∀ (k : Nat) e, l[k]? = some e → (i + k ∈ used ↔ e ∈ kept)) →
    ∃ ms, addNew w used i l = (ms, l.any fun e => decide (e ∉ kept)) ∧
      Pairs (fun e m => ∃ mtime size, doStat w e = .file mtime size ∧ m = newMsg e mtime size)
        (l.filter fun e => decide (e ∉ kept) && addable w e) ms := by
  intro l
  induction l with
  | nil => intro i _; exact ⟨[], rfl, .nil⟩
  | cons e l ih =>
    intro i hu
    obtain ⟨ms, e1, h1⟩ := ih (i + 1) (fun k e' hk => by
      have := hu (k + 1) e' (by simpa using hk)
      rw [show i + 1 + k = i + (k + 1) by omega]; exact this)
    have h0 := hu 0 e rfl
    rw [Nat.add_zero] at h0
    simp only [addNew, e1, List.filter_cons, List.any_cons]
    by_cases hk : e ∈ kept
    · have := h0.2 hk
      simp only [this, if_true, hk, not_true_eq_false, decide_false, Bool.false_or, Bool.false_and, Bool.false_eq_true, if_false]
      exact ⟨ms, rfl, h1⟩
    · have : ¬ i ∈ used := fun h => hk (h0.1 h)
      simp only [this, if_false, hk, not_false_eq_true, decide_true, Bool.true_or, Bool.true_and]
      have hadd : addable w e = true ↔ ∃ t s, doStat w e = .file t s := by
        obtain ⟨k, p⟩ := e
        cases k with
        | imap => simp [addable, doStat]
        | file =>
          simp only [addable, doStat, modified]
          cases w.stat p <;> simp
      cases hd : doStat w e with
      | file t s =>
        refine ⟨newMsg e t s :: ms, rfl, ?_⟩
        rw [if_pos (hadd.2 ⟨t, s, hd⟩)]
        exact .cons ⟨t, s, hd, rfl⟩ h1
      | bad =>
        refine ⟨ms, rfl, ?_⟩
        rw [if_neg (by rw [hadd]; simp [hd])]
        exact h1
      | dir =>
        refine ⟨ms, rfl, ?_⟩
        rw [if_neg (by rw [hadd]; simp [hd])]
        exact h1

/-- The index knows of the message what is read at its place. -/
def IndexedAs (w : World) (e : Listed) (x : MsgWords) : Prop :=
  (∀ f v, v ∈ x.words f ↔ ∃ r, Reads w e r ∧ HasWord r f v) ∧
  ∀ v own, (v, own) ∈ x.ids ↔ ∃ r, Reads w e r ∧ HasId r own v

def noWords : MsgWords := { words := fun _ => [], ids := [] }

theorem TablesRep.newMessage {hash : Text → Nat} {d : Tables} {ix : List MsgWords} (h : TablesRep hash d ix) :
    TablesRep hash d (ix ++ [noWords]) := by
  constructor <;> simp only [List.map_append, List.map_cons, List.map_nil, noWords]
  · exact h.to.newMessage
  · exact h.cc.newMessage
  · exact h.sender.newMessage
  · exact h.subject.newMessage
  · exact h.body.newMessage
  · exact h.attachment.newMessage
  · exact h.ids.newMessage

/-- Adding a message to the index. -/
theorem tokenise_new {hash : Text → Nat} {d : Tables} {ix : List MsgWords} (h : TablesRep hash d ix)
    (hl : ix.length < maxMsgs) (r : Rfc822) :
    ∃ d' x, tokeniseMessage hash ix.length d r = .ok d' ∧ TablesRep hash d' (ix ++ [x]) ∧
      (∀ f v, v ∈ x.words f ↔ HasWord r f v) ∧ ∀ v own, (v, own) ∈ x.ids ↔ HasId r own v := by
  obtain ⟨d', x, e, h1, h2, h3⟩ := tokeniseMessage_rep hl r d noWords h.newMessage
  exact ⟨d', x, e, h1, by simpa [noWords] using h2, by simpa [noWords] using h3⟩

def scanned (e : Listed) (t : Int) (s : Nat) (r : Rfc822) : Msg :=
  { newMsg e t s with
    date := r.hdrs.date
    seen := (scanMaildirFlags e.path).2.2
    replied := (scanMaildirFlags e.path).2.1
    flagged := (scanMaildirFlags e.path).1 }

theorem scanOne_spec {hash : Text → Nat} {w : World} {d : Tables} {ix : List MsgWords} (h : TablesRep hash d ix)
    (hl : ix.length < maxMsgs) {e : Listed} {t : Int} {s : Nat} (hd : doStat w e = .file t s) :
    ∃ m' d' x, scanOne hash w ix.length (newMsg e t s) d = .ok (m', d') ∧ IsEntry w e m' ∧
      TablesRep hash d' (ix ++ [x]) ∧ IndexedAs w e x := by
  have hflags := scanMaildirFlags_spec e.path
  have hsrc : match e.kind with
    | .imap => (newMsg e t s).src = .imap e.path
    | .file => ∃ mtime size, w.stat e.path = .file mtime size ∧ (newMsg e t s).src = .file e.path mtime size := by
    obtain ⟨k, p⟩ := e
    cases k with
    | imap => rfl
    | file => exact ⟨t, s, hd, rfl⟩
  have hone : scanOne hash w ix.length (newMsg e t s) d =
      if isGitignore e.path then .ok (newMsg e t s, d)
      else match w.read e.kind e.path with
        | none => .ok (newMsg e t s, d)
        | some r => (tokeniseMessage hash ix.length d r).bind fun d' =>
          .ok (scanned e t s r, d') := by
    obtain ⟨k, p⟩ := e
    cases k with
    | imap => rfl
    | file => rfl
  have hnone : (∀ r, ¬ Reads w e r) → ∃ m' d' x, (Except.ok (newMsg e t s, d) : Res (Msg × Tables)) = .ok (m', d') ∧ IsEntry w e m' ∧
      TablesRep hash d' (ix ++ [x]) ∧ IndexedAs w e x := by
    intro hno
    refine ⟨_, _, noWords, rfl, ⟨hsrc, fun r hr => absurd hr (hno r), fun _ => ⟨rfl, rfl, rfl, rfl⟩⟩, h.newMessage, ?_, ?_⟩
    · intro f v
      constructor
      · intro h'; simp [noWords] at h'
      · rintro ⟨r, hr, _⟩; exact absurd hr (hno r)
    · intro v own
      constructor
      · intro h'; simp [noWords] at h'
      · rintro ⟨r, hr, _⟩; exact absurd hr (hno r)
  rw [hone]
  by_cases hg : isGitignore e.path = true
  · rw [if_pos hg]
    exact hnone fun r hr => hr.1 (isGitignore_iff.1 hg)
  · rw [if_neg hg]
    cases hrd : w.read e.kind e.path with
    | none => exact hnone fun r hr => by rw [hr.2] at hrd; cases hrd
    | some r =>
      have hR : Reads w e r := ⟨fun h' => hg (isGitignore_iff.2 h'), hrd⟩
      have huniq : ∀ r', Reads w e r' → r' = r := by
        intro r' hr'
        have := hr'.2
        rw [hrd] at this
        exact (Option.some.inj this).symm
      obtain ⟨d', x, e1, h1, h2, h3⟩ := tokenise_new h hl r
      simp only [e1, Except.bind]
      refine ⟨_, _, x, rfl, ⟨hsrc, ?_, fun hno => absurd hR (hno r)⟩, h1, ?_, ?_⟩
      · intro r' hr'
        rw [huniq r' hr']
        exact ⟨rfl, hflags.2.2, hflags.2.1, hflags.1⟩
      · intro f v
        rw [h2]
        constructor
        · intro h'; exact ⟨r, hR, h'⟩
        · rintro ⟨r', hr', h'⟩; rwa [huniq r' hr'] at h'
      · intro v own
        rw [h3]
        constructor
        · intro h'; exact ⟨r, hR, h'⟩
        · rintro ⟨r', hr', h'⟩; rwa [huniq r' hr'] at h'

theorem scanAll_spec {hash : Text → Nat} {w : World} : ∀ (es : List Listed) (ms : List Msg) (d : Tables) (ix : List MsgWords),
    Pairs (fun e m => ∃ mtime size, doStat w e = .file mtime size ∧ m = newMsg e mtime size) es ms →
    TablesRep hash d ix → ix.length + es.length ≤ maxMsgs →
    ∃ ms' d' xs, scanAll hash w ix.length ms d = .ok (ms', d') ∧ Pairs (IsEntry w) es ms' ∧
      TablesRep hash d' (ix ++ xs) ∧ Pairs (IndexedAs w) es xs := by
  intro es
  induction es with
  | nil =>
    intro ms d ix hf hd _
    cases hf
    exact ⟨[], d, [], rfl, .nil, by simpa using hd, .nil⟩
  | cons e es ih =>
    intro ms d ix hf hd hl
    cases hf with
    | cons hm hrest =>
      obtain ⟨t, s, hst, rfl⟩ := hm
      simp only [List.length_cons] at hl
      obtain ⟨m', d', x, e1, h1, h2, h3⟩ := scanOne_spec hd (by omega) hst
      obtain ⟨ms', d'', xs, e2, h4, h5, h6⟩ := ih _ d' (ix ++ [x]) hrest h2 (by simp; omega)
      refine ⟨m' :: ms', d'', x :: xs, ?_, .cons h1 h4, by simpa using h5, .cons h3 h6⟩
      have : (ix ++ [x]).length = ix.length + 1 := by simp
      rw [this] at e2
      simp only [scanAll, e1, e2, bind, Except.bind]

theorem pairs_length {α β : Type} {R : α → β → Prop} {l : List α} {l' : List β} (h : Pairs R l l') :
    l.length = l'.length := by
  induction h with
  | nil => rfl
  | cons _ _ ih => simp [ih]

theorem setTids_map {α : Type} (g : Msg → α) (hg : ∀ m t, g { m with tid := t } = g m) : ∀ (ms : List Msg) (ts : List Nat),
    (setTids ms ts).map g = ms.map g := by
  intro ms
  induction ms with
  | nil => intro ts; cases ts <;> rfl
  | cons m ms ih => intro ts; cases ts with
    | nil => rfl
    | cons t ts => simp [setTids, hg, ih]

end Mairix
