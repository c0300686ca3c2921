import Verif.Spec.Imap
import Verif.Proofs.Output
import Verif.Proofs.Header

/-!
# Folders and messages on an IMAP server
-/

namespace Mairix
open Spec

theorem takeWhile_self {p : UInt8 → Bool} : ∀ {t : Text}, (∀ c ∈ t, p c = true) → t.takeWhile p = t
  | [], _ => rfl
  | c :: t, h => by
    rw [List.takeWhile_cons_of_pos (h c List.mem_cons_self), takeWhile_self fun x hx => h x (List.mem_cons_of_mem _ hx)]

theorem cstr_plain {t : Text} (h : (0 : UInt8) ∉ t) : cstr t = t := by
  unfold cstr
  apply takeWhile_self
  intro x hx
  have : x ≠ 0 := fun e => h (e ▸ hx)
  simpa using this

theorem digits_noNul (n : Nat) : (0 : UInt8) ∉ digits n := fun h => by
  have := isDigit_digits h
  exact absurd this (by decide)

theorem isWord_atom {a w : Text} (h : (0 : UInt8) ∉ a) : (ImapTok.atom a).isWord w = (a == w) := by
  simp only [ImapTok.isWord, cstr_plain h]

theorem isWord_ne {t : ImapTok} {w : Text} (h : NoNul t) (hne : t ≠ .atom w) : t.isWord w = false := by
  cases t with
  | atom a =>
    rw [isWord_atom h]
    by_cases e : a = w
    · subst e; exact absurd rfl hne
    · simpa using e
  | string _ => rfl
  | list _ => rfl
  | sqlist _ => rfl

/-! ## The last line -/

theorem answer_status {st : Text} {body r : List ImapLine} (h : Answer st body r) : imapStatus (some r) = .ok st := by
  obtain ⟨last, rest, rfl, h2, h3, -⟩ := h
  simp only [imapStatus, List.getLast?_append, List.getLast?_singleton, Option.some_or, h2, cstr_plain h3]

theorem answer_body {st : Text} {body r : List ImapLine} (h : Answer st body r) : r.dropLast = body := by
  obtain ⟨last, rest, rfl, -⟩ := h
  simp

theorem answer_not_trycreate {body r : List ImapLine} (h : Answer (bs "OK") body r) : isTrycreate (some r) = .ok false := by
  simp only [isTrycreate, answer_status h, bind, Except.bind]
  rw [if_neg (by decide)]

theorem trycreate_status {r : List ImapLine} (h : Trycreate r) : isTrycreate (some r) = .ok true ∧ imapStatus (some r) = .ok (bs "NO") := by
  obtain ⟨body, last, more, rest, rfl, h2⟩ := h
  have h3 : imapStatus (some (body ++ [last])) = .ok (bs "NO") := by
    simp only [imapStatus, List.getLast?_append, List.getLast?_singleton, Option.some_or, h2]
    rfl
  refine ⟨?_, h3⟩
  simp only [isTrycreate, h3, bind, Except.bind, if_true, Option.bind, List.getLast?_append, List.getLast?_singleton, Option.some_or,
    Option.map, h2]
  rfl

/-! ## SELECT -/

theorem atolLeaf_digits (n : Nat) : atolLeaf (digits n) = n := by
  unfold atolLeaf
  rw [cstr_plain (digits_noNul n)]
  have hd : ∀ c ∈ digits n, isDigit c = true := fun c hc => isDigit_digits hc
  have h1 : (digits n).dropWhile isSpace = digits n := by
    cases he : digits n with
    | nil => rfl
    | cons c t =>
      have : isDigit c = true := hd c (by rw [he]; exact List.mem_cons_self)
      rw [List.dropWhile_cons_of_neg]
      intro hs
      simp only [isSpace, isDigit, Bool.or_eq_true, Bool.and_eq_true, decide_eq_true_eq, beq_iff_eq] at hs this
      simp only [UInt8.le_iff_toNat_le, ← UInt8.toNat_inj, UInt8.reduceToNat] at hs this
      omega
  have h2 : (digits n).head? ≠ some 43 := by
    intro h
    have := hd 43 (List.mem_of_mem_head? h)
    exact absurd this (by decide)
  simp only [h1, h2, if_false]
  rw [takeWhile_self hd, decimal_digits]

theorem selectLine_cases {l : ImapLine} (hn : NoNuls l.items) (hs : ∃ a t more, l.items = .atom a :: t :: more) (acc : Option Text × Nat) :
    (∃ v, ValidityLine v l ∧ selectLine acc l = (some v, acc.2)) ∨ (∃ n, ExistsLine n l ∧ selectLine acc l = (acc.1, atolLeaf n)) ∨
    ((∀ v, ¬ ValidityLine v l) ∧ (∀ n, ExistsLine n l → n = bs "OK") ∧ selectLine acc l = acc) := by
  obtain ⟨a, t, more, he⟩ := hs
  rw [he] at hn
  have ha : (0 : UInt8) ∉ a := hn.1
  have ht : NoNul t := hn.2.1
  by_cases hok : a = bs "OK"
  · subst hok
    by_cases hv : ∃ v, ValidityLine v l
    · left
      obtain ⟨v, m2, rest, hv⟩ := hv
      refine ⟨v, ⟨m2, rest, hv⟩, ?_⟩
      rw [he] at hv
      injection hv with _ hv
      injection hv with ht' hv
      subst ht'
      have hv0 : (0 : UInt8) ∉ v := ht.2.1
      simp only [selectLine, he]
      rw [if_pos (by decide), if_pos (by decide), cstr_plain hv0]
    · right; right
      refine ⟨fun v h => hv ⟨v, h⟩, ?_, ?_⟩
      · rintro n ⟨r, hr⟩
        rw [he] at hr
        injection hr with h1 _
        injection h1 with h1
        exact h1.symm
      · simp only [selectLine, he]
        rw [if_pos (by decide)]
        split
        · next heq =>
          rw [if_neg]
          intro hw
          injection heq with h1 h2
          subst h1
          rename_i t1 v1 m1 _
          have : t1 = .atom (bs "UIDVALIDITY") := by
            apply Classical.byContradiction
            intro hne
            rw [isWord_ne ht.1 hne] at hw
            cases hw
          subst this
          exact hv ⟨v1, m1, more, he⟩
        · rfl
  · have hcs : cstr a ≠ bs "OK" := by rw [cstr_plain ha]; exact hok
    by_cases hx : t = .atom (bs "EXISTS")
    · subst hx
      right; left
      refine ⟨a, ⟨more, he⟩, ?_⟩
      simp only [selectLine, he, if_neg hcs]
      rw [if_pos (by decide)]
    · right; right
      refine ⟨?_, ?_, ?_⟩
      · rintro v ⟨m2, rest, h⟩
        rw [he] at h
        injection h with h1 _
        injection h1 with h1
        exact hok h1
      · rintro n ⟨r, hr⟩
        rw [he] at hr
        injection hr with _ h2
        injection h2 with h2 _
        exact absurd h2 hx
      · simp only [selectLine, he, if_neg hcs]
        rw [isWord_ne ht hx]
        rfl

theorem digits_ne_ok (n : Nat) : digits n ≠ bs "OK" := fun h => by
  have : (79 : UInt8) ∈ digits n := by rw [h]; decide
  exact absurd (isDigit_digits this) (by decide)

theorem foldl_select (v : Text) (n : Nat) : ∀ (body : List ImapLine) (acc : Option Text × Nat),
    (∀ l ∈ body, NoNuls l.items ∧ ∃ a t more, l.items = .atom a :: t :: more) →
    (∀ l ∈ body, ∀ v', ValidityLine v' l → v' = v) → (∀ l ∈ body, ∀ n', ExistsLine n' l → n' = digits n) →
    (acc.1 = some v ∨ ∃ l ∈ body, ValidityLine v l) → (acc.2 = n ∨ ∃ l ∈ body, ExistsLine (digits n) l) →
    body.foldl selectLine acc = (some v, n) := by
  intro body
  induction body with
  | nil =>
    intro acc _ _ _ h1 h2
    simp only [List.not_mem_nil, false_and, exists_false, or_false] at h1 h2
    simp only [List.foldl_nil]
    rw [← h1, ← h2]
  | cons l body ih =>
    intro acc hw hv hx h1 h2
    rw [List.foldl_cons]
    have hl := hw l List.mem_cons_self
    apply ih _ (fun x hx => hw x (List.mem_cons_of_mem _ hx)) (fun x hx => hv x (List.mem_cons_of_mem _ hx))
      (fun y hy => hx y (List.mem_cons_of_mem _ hy))
    · rcases selectLine_cases hl.1 hl.2 acc with ⟨v', hv', e⟩ | ⟨n', hn', e⟩ | ⟨hnv, -, e⟩
      · left
        rw [e, hv l List.mem_cons_self v' hv']
      · rw [e]
        rcases h1 with h1 | ⟨y, hy, hyv⟩
        · exact Or.inl h1
        · rcases List.mem_cons.mp hy with rfl | hy
          · obtain ⟨_, _, h3⟩ := hyv
            obtain ⟨_, h4⟩ := hn'
            rw [h3] at h4
            injection h4 with _ h4
            injection h4 with h4 _
            cases h4
          · exact Or.inr ⟨y, hy, hyv⟩
      · rw [e]
        rcases h1 with h1 | ⟨y, hy, hyv⟩
        · exact Or.inl h1
        · rcases List.mem_cons.mp hy with rfl | hy
          · exact absurd hyv (hnv _)
          · exact Or.inr ⟨y, hy, hyv⟩
    · rcases selectLine_cases hl.1 hl.2 acc with ⟨v', hv', e⟩ | ⟨n', hn', e⟩ | ⟨-, hnx, e⟩
      · rw [e]
        rcases h2 with h2 | ⟨y, hy, hyv⟩
        · exact Or.inl h2
        · rcases List.mem_cons.mp hy with rfl | hy
          · obtain ⟨_, _, h3⟩ := hv'
            obtain ⟨_, h4⟩ := hyv
            rw [h3] at h4
            injection h4 with _ h4
            injection h4 with h4 _
            cases h4
          · exact Or.inr ⟨y, hy, hyv⟩
      · left
        rw [e, hx l List.mem_cons_self n' hn']
        exact atolLeaf_digits n
      · rw [e]
        rcases h2 with h2 | ⟨y, hy, hyv⟩
        · exact Or.inl h2
        · rcases List.mem_cons.mp hy with rfl | hy
          · exact absurd (hnx _ hyv) (digits_ne_ok n)
          · exact Or.inr ⟨y, hy, hyv⟩

variable {σ : Type} {exec : Exec σ} {view : σ → Server}

/-- What is remembered about the selected mailbox is true if it is this one. -/
def CoherentAt (view : σ → Server) (s : Sess σ) (f : Text) : Prop :=
  ∀ x, s.sel = some x → x.name = f → (view s.conn).selected = some (x.name, x.writable) ∧
    ∃ b, (view s.conn).boxes x.name = some b ∧ x.uidvalidity = digits b.validity

theorem Spec.Coherent.at {s : Sess σ} (h : Coherent view s) (f : Text) : CoherentAt view s f := fun x hx _ => h x hx

/-- Selecting a folder that exists. -/
theorem select_some (hc : Conforms exec view) {s : Sess σ} {f : Text} {w : Bool} (hs : CoherentAt view s f) {b : Box}
    (hb : (view s.conn).boxes f = some b) :
    ∃ n s', imapSelect exec s f w = .ok (some (digits b.validity, n), s') ∧ (view s'.conn).boxes = (view s.conn).boxes ∧
      Coherent view s' ∧ (∃ w', (view s'.conn).selected = some (f, w') ∧ (w = true → w' = true)) ∧
      ((∀ x, s.sel = some x → x.name ≠ f) → n = b.msgs.length ∧ ∃ x, s'.sel = some x ∧ x.name = f) := by
  unfold imapSelect
  cases hf : s.sel.filter (fun x => x.name == f && (!w || x.writable)) with
  | some x =>
    obtain ⟨hx, hp⟩ := Option.filter_eq_some_iff.mp hf
    simp only [Bool.and_eq_true, beq_iff_eq, Bool.or_eq_true, Bool.not_eq_true'] at hp
    obtain ⟨hn, hw⟩ := hp
    have hco : Coherent view s := fun y hy => by
      rw [hx] at hy; cases hy
      exact hs x hx hn
    obtain ⟨h1, b', h2, h3⟩ := hco x hx
    rw [hn] at h2 h1
    rw [hb] at h2
    cases h2
    refine ⟨x.exists_, s, by simp only [h3], rfl, hco, ⟨x.writable, h1, ?_⟩, fun h => absurd hn (h x hx)⟩
    intro hw'
    subst hw'
    simpa using hw
  | none =>
    obtain ⟨ls, c', he, h1, -⟩ := hc.select s.conn f w
    obtain ⟨⟨body, ha, hv, hv', hx, hx'⟩, hview⟩ := h1 b hb
    have hfold := foldl_select (digits b.validity) b.msgs.length body (none, 0) (by obtain ⟨_, _, _, _, _, h⟩ := ha; exact h) hv' hx'
      (Or.inr hv) (Or.inr hx)
    refine ⟨b.msgs.length, ⟨c', some ⟨f, digits b.validity, w, b.msgs.length⟩⟩, ?_, ?_, ?_, ⟨w, ?_, id⟩,
      fun _ => ⟨rfl, _, rfl, rfl⟩⟩
    · simp only [he, bind, Except.bind, answer_status ha, ne_eq, not_true_eq_false, if_false, answer_body ha, hfold]
    · simp only [hview]
    · intro x hx
      cases hx
      simp only [hview]
      exact ⟨trivial, b, hb, rfl⟩
    · simp only [hview]

/-- Selecting a folder that does not exist. -/
theorem select_none (hc : Conforms exec view) {s : Sess σ} {f : Text} {w : Bool} (hs : ∀ x, s.sel = some x → x.name ≠ f)
    (hb : (view s.conn).boxes f = none) :
    ∃ s', imapSelect exec s f w = .ok (none, s') ∧ (view s'.conn).boxes = (view s.conn).boxes ∧ s'.sel = s.sel := by
  unfold imapSelect
  have hf : s.sel.filter (fun x => x.name == f && (!w || x.writable)) = none := by
    cases h : s.sel with
    | none => rfl
    | some x =>
      have := hs x h
      simp [Option.filter, this]
  rw [hf]
  obtain ⟨ls, c', he, -, h2⟩ := hc.select s.conn f w
  obtain ⟨⟨st, body, ha, hst⟩, hview⟩ := h2 hb
  refine ⟨⟨c', s.sel⟩, ?_, by simp only [hview], rfl⟩
  simp only [he, bind, Except.bind, answer_status ha, ne_eq, hst, not_false_eq_true, if_true]

end Mairix
