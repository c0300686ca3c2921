import Verif.Proofs.MboxScan
import Verif.Spec.MboxIntact

/-!
# C29, C30: mbox folders
-/

namespace Mairix
open Spec

/-! ## C29: splitting -/

/-- **C29.** An mbox is scanned from where the messages already indexed end (`scanStart`; from the
beginning if there are none). The scan ends without looking outside the file and finds exactly the
messages between the From lines, or for an MMDF file those between its separators. -/
theorem C29_split (w : MboxWorld) (mb : Mbox) (va : Text) (base : Nat) (hb : scanStart mb va = .ok base) :
    ∃ l, buildNewMessageList w mb va = .ok l ∧
      (isMmdf va = false → Splits w.isFrom va base l) ∧
      (isMmdf va = true → ((∀ p, base ≤ p → ¬ MmdfLine va base p) ∧ l = []) ∨
        ∃ p, First (MmdfLine va base) base p ∧ MmdfSplits va p l) := by
  simp only [buildNewMessageList, hb, bind, Except.bind, findNextSeparator]
  cases hm : isMmdf va with
  | false =>
    simp only [Bool.false_eq_true, if_false]
    rcases findNextFrom_spec w.isFrom va base with ⟨p, e, hp⟩ | ⟨e, hp⟩
    · obtain ⟨l, e', hl⟩ := messagesLoop_spec w.isFrom va hm (va.length + 2) p base hp (by omega)
      rw [e]
      exact ⟨l, e', fun _ => hl, by simp⟩
    · rw [e]
      exact ⟨[], rfl, fun _ => .none hp, by simp⟩
  | true =>
    simp only [if_true]
    rcases findNextMmdfsep_spec va base with ⟨p, e, hp⟩ | ⟨e, hp⟩
    · obtain ⟨l, e', hl⟩ := mmdfLoop_spec w.isFrom va hm (va.length + 1) p (by omega)
      rw [e]
      exact ⟨l, e', by simp, fun _ => .inr ⟨p, hp, hl⟩⟩
    · rw [e]
      exact ⟨[], rfl, by simp, fun _ => .inl ⟨hp, rfl⟩⟩

/-- The scan starts at the beginning or right after the last message kept (and its MMDF separator). -/
theorem C29_start (mb : Mbox) (va : Text) :
    (mb.nOldValid = 0 → scanStart mb va = .ok 0) ∧
    (∀ m s n, mb.nOldValid ≠ 0 → mb.msgs[mb.nOldValid - 1]? = some m → m.pos = some (s, n) →
      scanStart mb va = .ok (s + n + if isMmdf va then 5 else 0)) := by
  constructor
  · intro h; simp [scanStart, h]
  · intro m s n h1 h2 h3; simp [scanStart, h1, h2, h3, sepWidth]

theorem nextLine_gt {va : Text} {p s : Nat} (h : NextLine va p s) : p < s ∧ s ≤ va.length := by
  obtain ⟨l, r, h1, _, h3⟩ := h
  have := congrArg List.length h1
  simp at this
  omega

/-- **C29, tiling.** The messages found lie inside the file, one behind the other without overlap, none
contains a From line, and what lies between a message and the next is a single line, a From line. -/
theorem C29_tiles {isFrom : Text → Bool} {va : Text} {base : Nat} {l : List (Nat × Nat)} (h : Splits isFrom va base l) :
    (∀ m ∈ l, base < m.1 ∧ m.1 + m.2 ≤ va.length ∧ 0 < va.length - m.1 ∧
      ∀ q, m.1 ≤ q → q < m.1 + m.2 → ¬ FromLine isFrom va m.1 q) ∧
    l.Pairwise (fun a b => a.1 + a.2 < b.1) ∧
    (∀ (i : Nat) a b, l[i]? = some a → l[i + 1]? = some b →
      FromLine isFrom va a.1 (a.1 + a.2) ∧ NextLine va (a.1 + a.2) b.1) := by
  induction h with
  | none => simp
  | bare => simp
  | @last base p s hF hs hsl hno =>
    have := nextLine_gt hs
    have := hF.1
    refine ⟨?_, by simp, ?_⟩
    · intro m hm
      simp only [List.mem_singleton] at hm
      subst hm
      refine ⟨by simp only; omega, by simp only; omega, by simp only; omega, fun q hq _ => hno q hq⟩
    · intro i a b h1 h2
      cases i <;> simp at h2
  | @more base p s q rest hF hs hsl hq hrest ih =>
    have h1 := nextLine_gt hs
    have h2 := hF.1
    have h3 := hq.1
    have h4 := fromLine_lt hq.2.1
    obtain ⟨i1, i2, i3⟩ := ih
    refine ⟨?_, ?_, ?_⟩
    · intro m hm
      rcases List.mem_cons.1 hm with rfl | hm
      · refine ⟨by simp only; omega, by simp only; omega, by simp only; omega, fun x hx hx' => hq.2.2 x hx ?_⟩
        simp only at hx'; omega
      · obtain ⟨a, b, c, d⟩ := i1 m hm
        exact ⟨by omega, b, c, d⟩
    · rw [List.pairwise_cons]
      refine ⟨?_, i2⟩
      intro b hb
      have := (i1 b hb).1
      simp only; omega
    · intro i a b ha hb
      cases i with
      | zero =>
        simp only [List.getElem?_cons_zero, Option.some.injEq] at ha
        subst ha
        simp only [Nat.zero_add, List.getElem?_cons_succ] at hb
        have hsq : s + (q - s) = q := by omega
        simp only [hsq]
        refine ⟨hq.2.1, ?_⟩
        cases hrest with
        | none => simp at hb
        | bare => simp at hb
        | @last _ p' s' hF' hs' hsl' hno' =>
          simp at hb; subst hb
          have : p' = q := by
            apply Classical.byContradiction
            intro hne
            have := hF'.1
            exact hF'.2.2 q (Nat.le_refl _) (by omega) ⟨.inl rfl, hq.2.1.2⟩
          subst this; exact hs'
        | @more _ p' s' q' rest' hF' hs' hsl' hq' hr' =>
          simp at hb; subst hb
          have : p' = q := by
            apply Classical.byContradiction
            intro hne
            have := hF'.1
            exact hF'.2.2 q (Nat.le_refl _) (by omega) ⟨.inl rfl, hq.2.1.2⟩
          subst this; exact hs'
      | succ i =>
        simp only [List.getElem?_cons_succ] at ha hb
        exact i3 i a b ha hb

theorem first_unique {S : Nat → Prop} {base p q : Nat} (h : First S base p) (h' : First S base q) : p = q := by
  rcases Nat.lt_trichotomy p q with hlt | heq | hgt
  · exact absurd h.2.1 (h'.2.2 p h.1 hlt)
  · exact heq
  · exact absurd h'.2.1 (h.2.2 q h'.1 hgt)

/-- The specification leaves no choice: there is only one way to split a file. -/
theorem C29_unique {isFrom : Text → Bool} {va : Text} {base : Nat} {l l' : List (Nat × Nat)}
    (h : Splits isFrom va base l) (h' : Splits isFrom va base l') : l = l' := by
  induction h generalizing l' with
  | none hno =>
    cases h' with
    | none => rfl
    | bare => rfl
    | last hF => exact absurd hF.2.1 (hno _ hF.1)
    | more hF => exact absurd hF.2.1 (hno _ hF.1)
  | bare hF hs =>
    cases h' with
    | none => rfl
    | bare => rfl
    | last hF' hs' hsl' =>
      rw [first_unique hF' hF] at hs'
      have := hs _ hs'
      omega
    | more hF' hs' hsl' =>
      rw [first_unique hF' hF] at hs'
      have := hs _ hs'
      omega
  | last hF hs hsl hno =>
    cases h' with
    | none hno' => exact absurd hF.2.1 (hno' _ hF.1)
    | bare hF' hs' =>
      rw [first_unique hF hF'] at hs
      have := hs' _ hs
      omega
    | last hF' hs' =>
      rw [first_unique hF' hF] at hs'
      rw [nextLine_unique hs hs']
    | more hF' hs' hsl' hq' =>
      rw [first_unique hF' hF] at hs'
      have := nextLine_unique hs hs'
      subst this
      exact absurd hq'.2.1 (hno _ hq'.1)
  | more hF hs hsl hq hr ih =>
    cases h' with
    | none hno' => exact absurd hF.2.1 (hno' _ hF.1)
    | bare hF' hs' =>
      rw [first_unique hF hF'] at hs
      have := hs' _ hs
      omega
    | last hF' hs' hsl' hno' =>
      rw [first_unique hF' hF] at hs'
      have := nextLine_unique hs hs'
      subst this
      exact absurd hq.2.1 (hno' _ hq.1)
    | more hF' hs' hsl' hq' hr' =>
      rw [first_unique hF' hF] at hs'
      have := nextLine_unique hs hs'
      subst this
      have := first_unique hq hq'
      subst this
      rw [ih hr']

/-- An mbox for the examples: two messages; a line beginning with `From ` that is not a From line. The
test for From lines used in the examples: a digit follows. -/
def exMboxText : Text := bs "From 1\nS: a\n\nFrom me\nFrom 2\nS: b\n"

def exIsFrom : Text → Bool
  | c :: _ => isDigit c
  | [] => false

/-- Checksum used in the examples. -/
def exSum (t : Text) : List UInt8 := [UInt8.ofNat t.length, t.foldl (· + ·) 0]

def exMboxWorld : MboxWorld where
  contents := fun _ => .data exMboxText
  parse := fun _ => (none, false)
  md5 := exSum
  isFrom := exIsFrom

def exMbox : Mbox :=
  { path := some (bs "/b"), fileMtime := 0, fileSize := 0, currentMtime := 1, currentSize := 34,
    nOldValid := 0, newMsgs := [], msgs := [] }

/-- `C29_split` has its hypothesis met, and the messages are found: `S: a`, empty line, `From me`; and
`S: b`. -/
example : scanStart exMbox exMboxText = .ok 0 ∧ isMmdf exMboxText = false ∧
    buildNewMessageList exMboxWorld exMbox exMboxText = .ok [(7, 14), (28, 5)] := by decide +kernel

/-- The same for an MMDF file with two messages. -/
example : isMmdf (bs "\x01\x01\x01\x01\nab\n\x01\x01\x01\x01\n\x01\x01\x01\x01\nc\n\x01\x01\x01\x01\n") = true ∧
    buildNewMessageList exMboxWorld exMbox
      (bs "\x01\x01\x01\x01\nab\n\x01\x01\x01\x01\n\x01\x01\x01\x01\nc\n\x01\x01\x01\x01\n") = .ok [(5, 3), (18, 2)] := by
  decide +kernel

/-! ## C30: what is kept of an mbox that has changed -/

theorem isIntact_spec {w : MboxWorld} {mb : Mbox} {va : Text} (hk : PlacesKnown mb) {i : Nat} (hi : i < mb.msgs.length) :
    ∃ b, isIntact w mb i va = .ok b ∧ (b = true ↔ StillThere w mb va i) := by
  have hg : mb.msgs[i]? = some mb.msgs[i] := by simp [hi]
  obtain ⟨start, len, hp, hs⟩ := hk mb.msgs[i] (List.getElem_mem hi)
  simp only [isIntact, hg, hp]
  rw [Nat.mod_eq_of_lt hs]
  by_cases h : start + len > va.length
  · refine ⟨false, by rw [if_pos h], ?_⟩
    simp only [Bool.false_eq_true, false_iff]
    rintro ⟨m, s, l, h1, h2, h3, _⟩
    rw [hg] at h1; cases h1
    rw [hp] at h2; cases h2
    omega
  · refine ⟨decide (mb.msgs[i].check = w.md5 ((va.drop start).take len)), by rw [if_neg h, if_neg h], ?_⟩
    rw [decide_eq_true_iff]
    constructor
    · intro he; exact ⟨_, start, len, hg, hp, by omega, he⟩
    · rintro ⟨m, s, l, h1, h2, h3, h4⟩
      rw [hg] at h1; cases h1
      rw [hp] at h2; cases h2
      exact h4

theorem chopLoop_spec {w : MboxWorld} {mb : Mbox} {va : Text} (hk : PlacesKnown mb) : ∀ (fuel l h : Nat), l < h →
    h - l < fuel → h ≤ mb.msgs.length → StillThere w mb va l → ¬ StillThere w mb va h →
    ∃ r, chopLoop w mb va fuel l h = .ok r ∧ l ≤ r ∧ r < h ∧ StillThere w mb va r ∧ ¬ StillThere w mb va (r + 1) := by
  intro fuel
  induction fuel with
  | zero => intro l h _ hf; omega
  | succ fuel ih =>
    intro l h hl hf hh h1 h2
    simp only [chopLoop, hl, if_true, bind, Except.bind]
    by_cases hm : (h + l) / 2 = l
    · have : h = l + 1 := by omega
      subst this
      exact ⟨l, by rw [if_pos hm], Nat.le_refl _, by omega, h1, h2⟩
    · rw [if_neg hm]
      obtain ⟨b, e, hb⟩ := isIntact_spec (w := w) (va := va) hk (i := (h + l) / 2) (by omega)
      rw [e]
      simp only
      cases b with
      | true =>
        obtain ⟨r, e', a1, a2, a3, a4⟩ := ih ((h + l) / 2) h (by omega) (by omega) hh (hb.1 rfl) h2
        exact ⟨r, by simpa using e', by omega, a2, a3, a4⟩
      | false =>
        obtain ⟨r, e', a1, a2, a3, a4⟩ := ih l ((h + l) / 2) (by omega) (by omega) (by omega) h1
          (fun h => by have := hb.2 h; cases this)
        exact ⟨r, by simpa using e', a1, by omega, a3, a4⟩

/-- **C30, in general.** Whatever has happened to the mbox, the number of messages kept is found without
looking outside the file, the last message kept is still there, and the next one is not. -/
theorem C30_boundary (w : MboxWorld) (mb : Mbox) (va : Text) (hk : PlacesKnown mb) :
    ∃ n, findNumberIntact w mb va = .ok n ∧ n ≤ mb.msgs.length ∧
      (0 < n → StillThere w mb va (n - 1)) ∧ ¬ StillThere w mb va n := by
  have hout : ¬ StillThere w mb va mb.msgs.length := by
    rintro ⟨m, s, l, h1, _⟩
    simp at h1
  unfold findNumberIntact
  by_cases h0 : mb.msgs.length = 0
  · rw [if_pos h0]
    refine ⟨0, rfl, by omega, by simp, ?_⟩
    rw [h0] at hout
    exact hout
  · rw [if_neg h0]
    obtain ⟨b, e, hb⟩ := isIntact_spec (w := w) (va := va) hk (i := mb.msgs.length - 1) (by omega)
    simp only [e, bind, Except.bind]
    cases b with
    | true =>
      rw [if_pos rfl]
      exact ⟨_, rfl, Nat.le_refl _, fun _ => hb.1 rfl, hout⟩
    | false =>
      rw [if_neg (by simp)]
      obtain ⟨b', e', hb'⟩ := isIntact_spec (w := w) (va := va) hk (i := 0) (by omega)
      rw [e']
      simp only
      cases b' with
      | false =>
        rw [if_pos (by simp)]
        exact ⟨0, rfl, by omega, by simp, fun h => by have := hb'.2 h; cases this⟩
      | true =>
        rw [if_neg (by simp)]
        obtain ⟨r, e2, a1, a2, a3, a4⟩ := chopLoop_spec hk (mb.msgs.length + 1) 0 mb.msgs.length (by omega) (by omega)
          (Nat.le_refl _) (hb'.1 rfl) hout
        rw [e2]
        exact ⟨r + 1, rfl, by omega, fun _ => a3, a4⟩

/-- **C30.** If the messages still there are the first ones (when a message has gone or has been changed,
those behind it have moved), exactly these are kept. In particular all are kept if all are still there,
as after appending to the mbox. -/
theorem C30_intact (w : MboxWorld) (mb : Mbox) (va : Text) (hk : PlacesKnown mb) (k : Nat) (hkn : k ≤ mb.msgs.length)
    (hpre : ∀ i, i < mb.msgs.length → (StillThere w mb va i ↔ i < k)) :
    findNumberIntact w mb va = .ok k := by
  obtain ⟨n, e, h1, h2, h3⟩ := C30_boundary w mb va hk
  rw [e]
  congr 1
  by_cases hn : n = 0
  · subst hn
    apply Classical.byContradiction
    intro hne
    exact h3 ((hpre 0 (by omega)).2 (by omega))
  · have := (hpre (n - 1) (by omega)).1 (h2 (by omega))
    by_cases hlt : n < mb.msgs.length
    · have : ¬ n < k := fun h => h3 ((hpre n hlt).2 h)
      omega
    · omega

/-- An mbox of three messages, as indexed from `aabbcc`. -/
def exMbox3 : Mbox :=
  { path := some (bs "/b"), fileMtime := 0, fileSize := 0, currentMtime := 1, currentSize := 6, nOldValid := 0, newMsgs := [],
    msgs := [⟨some (0, 2), exSum (bs "aa")⟩, ⟨some (2, 2), exSum (bs "bb")⟩, ⟨some (4, 2), exSum (bs "cc")⟩] }

example : PlacesKnown exMbox3 := by
  intro m hm
  simp only [exMbox3, List.mem_cons, List.not_mem_nil, or_false] at hm
  rcases hm with rfl | rfl | rfl <;> exact ⟨_, _, rfl, by omega⟩

/-- Appending keeps all three; removing the second keeps one; removing the first keeps none. -/
example : findNumberIntact exMboxWorld exMbox3 (bs "aabbccdd") = .ok 3 ∧
    findNumberIntact exMboxWorld exMbox3 (bs "aaccdd") = .ok 1 ∧
    findNumberIntact exMboxWorld exMbox3 (bs "bbcc") = .ok 0 := by decide +kernel

/-- **C30 without the restriction fails:** when a message is changed in place, keeping its length, and
the last message is unchanged, all messages are taken to be still there, also the changed one; its new
words are never indexed and its old ones are still found. -/
theorem C30_changed_in_place_violation :
    findNumberIntact exMboxWorld exMbox3 (bs "aaXXcc") = .ok 3 ∧
    ¬ StillThere exMboxWorld exMbox3 (bs "aaXXcc") 1 := by
  refine ⟨by decide +kernel, ?_⟩
  rintro ⟨m, s, l, h1, h2, h3, h4⟩
  have : m = ⟨some (2, 2), exSum (bs "bb")⟩ := by
    have e : exMbox3.msgs[1]? = some ⟨some (2, 2), exSum (bs "bb")⟩ := rfl
    rw [e] at h1
    exact (Option.some.inj h1).symm
  subst this
  cases h2
  exact absurd h4 (by decide)

end Mairix
