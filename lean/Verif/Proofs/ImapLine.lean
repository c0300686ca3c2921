import Verif.Spec.ImapLine
import Verif.Proofs.Output
import Verif.Proofs.CullFuel

/-!
# Reading responses: what `imap_ll_waitline` makes of a well-formed one
-/

namespace Mairix
open Spec

/-- Reading `t` leads from one state to another. -/
def Goes (next : Nat) (s : WaitState) (t : Text) (s' : WaitState) : Prop :=
  ∀ rest, feedBuf next s (t ++ rest) = feedBuf next s' rest

theorem Goes.refl (next : Nat) (s : WaitState) : Goes next s [] s := fun _ => rfl

theorem Goes.trans {next : Nat} {s s' s'' : WaitState} {t t' : Text} (h : Goes next s t s') (h' : Goes next s' t' s'') :
    Goes next s (t ++ t') s'' := by
  intro rest
  rw [List.append_assoc, h, h']

theorem Goes.one {next : Nat} {s s' : WaitState} {c : UInt8} (hc : c ≠ 10 ∨ s.linestate = .afterCount ∨ s.linestate = .literal)
    (h : feedSwitch next s c = .ok s') : Goes next s [c] s' := by
  intro rest
  have : feed next s c = .ok (.inl s') := by
    unfold feed
    rw [if_neg (by rcases hc with hc | hc | hc <;> simp [hc]), h]; rfl
  simp only [List.cons_append, List.nil_append, feedBuf, this]
  rfl

/-! ## Items -/

/-- What has been read of the line: the children of the root, and of the lists that are open. -/
structure Sofar where
  items : List ImapTok
  lists : List (Bool × List ImapTok)

/-- A further item. -/
def Sofar.push (w : Sofar) (t : ImapTok) : Sofar :=
  match w.lists with
  | [] => { w with items := w.items ++ [t] }
  | (sq, l) :: ls => { w with lists := (sq, l ++ [t]) :: ls }

/-- Further items. -/
def Sofar.pushes (w : Sofar) : List ImapTok → Sofar
  | [] => w
  | t :: ts => (w.push t).pushes ts

/-- The byte that does not belong to an atom here. -/
def Sofar.no (w : Sofar) : Option UInt8 :=
  match w.lists with
  | [] => if w.items.length = 1 then some 91 else none
  | (true, _) :: _ => some 93
  | (false, _) :: _ => none

/-- Between two items. -/
structure LineAt (k : LineKind) (w : Sofar) (s : WaitState) : Prop where
  st : s.linestate = .things
  line : s.line = some k
  items : s.items = w.items
  lists : s.lists = w.lists
  cur : s.cur = none

/-- Behind an item, which may be an atom that is still being read. -/
def Done (k : LineKind) (w : Sofar) (s : WaitState) : Prop := s.linestate = .things ∧ ∃ s', s.flush = .ok s' ∧ LineAt k w s'

theorem LineAt.done {k : LineKind} {w : Sofar} {s : WaitState} (h : LineAt k w s) : Done k w s :=
  ⟨h.st, s, by simp [WaitState.flush, h.cur], h⟩

theorem LineAt.eq {k : LineKind} {w : Sofar} {s : WaitState} (h : LineAt k w s) : s = ⟨.things, s.recvTag, some k, w.items, w.lists, none⟩ := by
  obtain ⟨a, b, c, d, e, f⟩ := s
  obtain ⟨h1, h2, h3, h4, h5⟩ := h
  simp only at h1 h2 h3 h4 h5
  subst h1 h2 h3 h4 h5
  rfl

theorem no_brackets {w : Sofar} {c : UInt8} (hno : w.no ≠ some c) :
    ¬ (c = 91 ∧ w.lists = [] ∧ w.items.length = 1) ∧ ¬ (c = 93 ∧ w.lists.head?.map (·.1) = some true) := by
  constructor
  · rintro ⟨rfl, h1, h2⟩
    exact hno (by simp [Sofar.no, h1, h2])
  · rintro ⟨rfl, h1⟩
    apply hno
    unfold Sofar.no
    cases hl : w.lists with
    | nil => simp [hl] at h1
    | cons x xs =>
      obtain ⟨q, l⟩ := x
      simp only [hl, List.head?_cons, Option.map_some, Option.some.injEq] at h1
      subst h1; rfl

/-- Atoms, byte by byte. -/
theorem goes_atom (next : Nat) (k : LineKind) (w : Sofar) (n : Nat) :
    ∀ (a p : Text) (m : Nat), (p.length ≤ m ∧ 1 ≤ m) → (∀ c ∈ a, AtomByte c ∧ w.no ≠ some c) →
      ∃ m', (p ++ a).length ≤ m' ∧ 1 ≤ m' ∧
        Goes next ⟨.things, n, some k, w.items, w.lists, some ⟨p, m⟩⟩ a ⟨.things, n, some k, w.items, w.lists, some ⟨p ++ a, m'⟩⟩
  | [], p, m, hm, _ => ⟨m, by simpa using hm.1, hm.2, by simpa using Goes.refl _ _⟩
  | c :: a, p, m, hm, h => by
    obtain ⟨hb, hno⟩ := h c (List.mem_cons_self ..)
    obtain ⟨h32, h9, h13, h10, h34, h40, h41, h123⟩ := hb
    obtain ⟨h91, h93⟩ := no_brackets hno
    have step : feedSwitch next ⟨.things, n, some k, w.items, w.lists, some ⟨p, m⟩⟩ c =
        .ok ⟨.things, n, some k, w.items, w.lists, some ⟨p ++ [c], if p.length ≥ m then m * 2 else m⟩⟩ := by
      have hlt : p.length < (if p.length ≥ m then m * 2 else m) + 1 := by split <;> omega
      simp only [feedSwitch, feedThing, h34, h123, h91, h40, h41, h93, h32, h9, h13, if_false, false_and, or_self, Option.getD_some,
        TokBuf.extend, hlt, if_true]
      rfl
    obtain ⟨m', h1, h2, h3⟩ := goes_atom next k w n a (p ++ [c]) (if p.length ≥ m then m * 2 else m)
      (by simp only [List.length_append, List.length_singleton]; constructor <;> split <;> omega)
      (fun c' hc' => h c' (List.mem_cons_of_mem _ hc'))
    refine ⟨m', by simpa using h1, h2, ?_⟩
    have := (Goes.one (Or.inl h10) step).trans h3
    simpa using this

theorem goes_quoted (next : Nat) (k : LineKind) (w : Sofar) (n : Nat) :
    ∀ (a p : Text) (m : Nat), (p.length ≤ m ∧ 1 ≤ m) → (∀ c ∈ a, c ≠ 10 ∧ c ≠ 34) →
      ∃ m', (p ++ a).length ≤ m' ∧ 1 ≤ m' ∧
        Goes next ⟨.quoted, n, some k, w.items, w.lists, some ⟨p, m⟩⟩ a ⟨.quoted, n, some k, w.items, w.lists, some ⟨p ++ a, m'⟩⟩
  | [], p, m, hm, _ => ⟨m, by simpa using hm.1, hm.2, by simpa using Goes.refl _ _⟩
  | c :: a, p, m, hm, h => by
    obtain ⟨h10, h34⟩ := h c (List.mem_cons_self ..)
    have step : feedSwitch next ⟨.quoted, n, some k, w.items, w.lists, some ⟨p, m⟩⟩ c =
        .ok ⟨.quoted, n, some k, w.items, w.lists, some ⟨p ++ [c], if p.length ≥ m then m * 2 else m⟩⟩ := by
      have hlt : p.length < (if p.length ≥ m then m * 2 else m) + 1 := by split <;> omega
      simp only [feedSwitch, h34, if_false, Option.getD_some, TokBuf.extend, hlt, if_true]
      rfl
    obtain ⟨m', h1, h2, h3⟩ := goes_quoted next k w n a (p ++ [c]) (if p.length ≥ m then m * 2 else m)
      (by simp only [List.length_append, List.length_singleton]; constructor <;> split <;> omega)
      (fun c' hc' => h c' (List.mem_cons_of_mem _ hc'))
    refine ⟨m', by simpa using h1, h2, ?_⟩
    have := (Goes.one (Or.inl h10) step).trans h3
    simpa using this

theorem addDigit_digit {n d : Nat} (hd : d < 10) (h : 10 * n + d ≤ 2147483647) : addDigit n (UInt8.ofNat (48 + d)) = .ok (10 * n + d) := by
  unfold addDigit
  rw [ofNat_48 hd]
  simp only [Nat.add_sub_cancel_left]
  rw [if_pos h]

theorem isDigit_ofNat {d : Nat} (hd : d < 10) : isDigit (UInt8.ofNat (48 + d)) = true := by
  have : ∀ d < 10, isDigit (UInt8.ofNat (48 + d)) = true := by decide
  exact this d hd

/-- Digits, in a state that adds them up. -/
theorem goes_digits {next : Nat} {f : Nat → WaitState}
    (hf : ∀ n d, d < 10 → 10 * n + d ≤ 2147483647 → feedSwitch next (f n) (UInt8.ofNat (48 + d)) = .ok (f (10 * n + d))) :
    ∀ n, n ≤ 2147483647 → Goes next (f 0) (digits n) (f n) := by
  have h10 : ∀ d < 10, UInt8.ofNat (48 + d) ≠ 10 := by decide
  intro n
  induction n using Nat.strongRecOn with
  | ind n ih =>
    intro hn
    by_cases h : n < 10
    · rw [digits_lt h]
      have := hf 0 n h (by omega)
      simp only [Nat.mul_zero, Nat.zero_add] at this
      exact Goes.one (Or.inl (h10 n h)) this
    · rw [digits_ge (by omega)]
      have hlt : n % 10 < 10 := Nat.mod_lt _ (by decide)
      refine (ih (n / 10) (by omega) (by omega)).trans (Goes.one (Or.inl (h10 _ hlt)) ?_)
      have := hf (n / 10) (n % 10) hlt (by omega)
      rwa [show 10 * (n / 10) + n % 10 = n by omega] at this

theorem grow_at {k : LineKind} {w : Sofar} {t : ImapTok} {s : WaitState} (hl : s.line = some k) (hi : s.items = w.items) (hw : s.lists = w.lists)
    (n : Nat) : LineAt k (w.push t) { s.grow t with cur := none, linestate := .things, recvTag := n } := by
  obtain ⟨wi, wl⟩ := w
  simp only at hi hw
  subst hi
  subst hw
  cases h : s.lists with
  | nil => constructor <;> simp [Sofar.push, WaitState.grow, hl, h]
  | cons x xs => constructor <;> simp [Sofar.push, WaitState.grow, hl, h]

theorem goes_literal (next : Nat) (k : LineKind) (w : Sofar) (n : Nat) (m : Nat) :
    ∀ (a p : Text), a ≠ [] → (p ++ a).length = m →
      ∃ s', LineAt k (w.push (.string (p ++ a))) s' ∧ Goes next ⟨.literal, n, some k, w.items, w.lists, some ⟨p, m⟩⟩ a s'
  | [], _, h, _ => absurd rfl h
  | [c], p, _, hm => by
    simp only [List.length_append, List.length_singleton] at hm
    refine ⟨_, grow_at (s := ⟨.literal, n, some k, w.items, w.lists, some ⟨p, m⟩⟩) rfl rfl rfl n, Goes.one (Or.inr (Or.inr rfl)) ?_⟩
    have h1 : p.length < m + 1 := by omega
    have h2 : (p ++ [c]).length < m + 1 := by simp; omega
    simp only [feedSwitch, Option.getD_some, h1, if_true, hm, WaitState.endString, TokBuf.finish, h2]
    show Except.ok _ = Except.ok _
    unfold WaitState.grow
    cases w.lists with
    | nil => rfl
    | cons x xs => rfl
  | c :: c' :: a, p, _, hm => by
    simp only [List.length_append, List.length_cons] at hm
    obtain ⟨s', h1, h2⟩ := goes_literal next k w n m (c' :: a) (p ++ [c]) (by simp) (by simp; omega)
    have step : feedSwitch next ⟨.literal, n, some k, w.items, w.lists, some ⟨p, m⟩⟩ c =
        .ok ⟨.literal, n, some k, w.items, w.lists, some ⟨p ++ [c], m⟩⟩ := by
      have h1 : p.length < m + 1 := by omega
      have h2 : ¬ p.length + 1 = m := by omega
      simp only [feedSwitch, Option.getD_some, h1, if_true, h2, if_false]
    exact ⟨s', by simpa using h1, (Goes.one (Or.inr (Or.inr rfl)) step).trans h2⟩

theorem escape_plain {s : Text} (h : ∀ c ∈ s, c ≠ 34 ∧ c ≠ 92) : quoteEscape s = s := by
  induction s with
  | nil => rfl
  | cons c s ih =>
    have hc := h c (List.mem_cons_self ..)
    simp only [quoteEscape, hc.1, hc.2, or_self, if_false]
    rw [ih fun c hc => h c (List.mem_cons_of_mem _ hc)]

/-- A list is begun. -/
def Sofar.down (w : Sofar) (sq : Bool) : Sofar := { w with lists := (sq, []) :: w.lists }

theorem down_pushes (w : Sofar) (sq : Bool) (l : List ImapTok) (p : List ImapTok) :
    ({ w with lists := (sq, p) :: w.lists } : Sofar).pushes l = { w with lists := (sq, p ++ l) :: w.lists } := by
  induction l generalizing p with
  | nil => simp [Sofar.pushes]
  | cons t l ih =>
    simp only [Sofar.pushes, Sofar.push]
    rw [ih]; simp

theorem down_pushes' (w : Sofar) (sq : Bool) (l : List ImapTok) :
    (w.down sq).pushes l = { w with lists := (sq, l) :: w.lists } := by
  have := down_pushes w sq l []
  rw [List.nil_append] at this
  exact this

/-- Behind an item, a space leads to the next one. -/
theorem Done.space {next : Nat} {k : LineKind} {w : Sofar} {s : WaitState} {c : UInt8} (hc : c = 32 ∨ c = 13) (h : Done k w s) :
    ∃ s', Goes next s [c] s' ∧ LineAt k w s' := by
  obtain ⟨hs, s', h1, h2⟩ := h
  refine ⟨s', Goes.one (Or.inl (by rcases hc with rfl | rfl <;> decide)) ?_, h2⟩
  rw [← h1]
  rcases hc with rfl | rfl <;> simp [feedSwitch, hs, feedThing]

/-- Behind the items of a list, it is closed. -/
theorem Done.close {next : Nat} {k : LineKind} {w : Sofar} {s : WaitState} {sq : Bool} {l : List ImapTok}
    (h : Done k { w with lists := (sq, l) :: w.lists } s) :
    ∃ s', Goes next s [if sq then 93 else 41] s' ∧ LineAt k (w.push (mkList sq l)) s' := by
  obtain ⟨hs, s', h1, h2⟩ := h
  have hl : s.lists.head?.map (·.1) = some sq := by
    have h3 := h2.lists
    unfold WaitState.flush at h1
    cases hcur : s.cur with
    | none =>
      rw [hcur] at h1
      simp only [Except.ok.injEq] at h1
      subst h1
      simp [h3]
    | some b =>
      rw [hcur] at h1
      obtain ⟨t, ht, h1⟩ := res_bind_ok h1
      simp only [Except.ok.injEq] at h1
      subst h1
      simp only [WaitState.grow] at h3
      split at h3
      · rename_i h4; simp [h4] at h3
      · rename_i a b c h4
        simp only [h4, List.cons.injEq, Prod.mk.injEq] at h3 ⊢
        simp [h3.1.1]
  refine ⟨s'.up, Goes.one (Or.inl (by cases sq <;> decide)) ?_, ?_⟩
  · have hne : ¬ s.lists = [] := by intro h; simp [h] at hl
    cases sq <;> simp [feedSwitch, hs, feedThing, hl, hne, h1] <;> rfl
  · have h3 := h2.lists
    simp only at h3
    unfold WaitState.up
    rw [h3]
    simp only
    have := grow_at (k := k) (w := w) (t := mkList sq l) (s := { s' with lists := w.lists }) h2.line h2.items rfl s'.recvTag
    have e : ({ s' with lists := w.lists } : WaitState).grow (mkList sq l) =
        { ({ s' with lists := w.lists } : WaitState).grow (mkList sq l) with cur := none, linestate := .things, recvTag := s'.recvTag } := by
      have h4 := h2.st
      have h5 := h2.cur
      unfold WaitState.grow
      split <;> simp [h4, h5]
    rw [e]; exact this

/-- Further items do not change the meaning of brackets. -/
def Sofar.Stable (w : Sofar) : Prop := w.lists ≠ [] ∨ 2 ≤ w.items.length

theorem no_push {w : Sofar} {t : ImapTok} (h : w.Stable) : (w.push t).no = w.no ∧ (w.push t).Stable := by
  unfold Sofar.Stable at *
  unfold Sofar.push Sofar.no
  cases hl : w.lists with
  | nil =>
    rcases h with h | h
    · exact absurd hl h
    · have h1 : ¬ w.items.length + 1 = 1 := by omega
      have h2 : ¬ w.items.length = 1 := by omega
      simp only [hl, List.length_append, List.length_singleton, h1, h2, if_false]
      exact ⟨trivial, Or.inr (by omega)⟩
  | cons x xs =>
    obtain ⟨sq, l⟩ := x
    cases sq <;> simp

mutual
theorem goes_tok (next : Nat) (k : LineKind) (w : Sofar) : ∀ (t : RespTok) (s : WaitState), LineAt k w s → WfTok w.no t →
    ∃ s', Goes next s (wire t) s' ∧ Done k (w.push (meant t)) s'
  | .atom a, s, h, hw => by
    obtain ⟨hne, ha⟩ := hw
    cases a with
    | nil => exact absurd rfl hne
    | cons c a =>
      have he := h.eq
      obtain ⟨m', h1, h2, h3⟩ := goes_atom next k w s.recvTag (c :: a) [] 25 (by simp) ha
      refine ⟨⟨.things, s.recvTag, some k, w.items, w.lists, some ⟨c :: a, m'⟩⟩, ?_, rfl, ?_⟩
      · intro rest
        show feedBuf next s (c :: a ++ rest) = _
        rw [← List.nil_append (c :: a), ← h3 rest, he]
        -- the first byte allocates the buffer
        simp only [List.cons_append, feedBuf, List.nil_append]
        congr 1
        obtain ⟨⟨h32, h9, h13, h10, h34, h40, h41, h123⟩, hno⟩ := ha c (List.mem_cons_self ..)
        simp only [feed, h10, false_and, if_false, feedSwitch, feedThing, h34, h123, (no_brackets hno).1, h40, h41, (no_brackets hno).2,
          h32, h9, h13, or_self, Option.getD_none, Option.getD_some]
      · refine ⟨_, ?_, grow_at (k := k) (w := w) (t := .atom (c :: a)) (s := ⟨.things, s.recvTag, some k, w.items, w.lists, some ⟨c :: a, m'⟩⟩)
          rfl rfl rfl s.recvTag⟩
        have hlt : (c :: a).length < m' + 1 := by simpa using Nat.lt_succ_of_le h1
        simp only [WaitState.flush, TokBuf.finish, hlt, if_true]
        show Except.ok _ = Except.ok _
        unfold WaitState.grow
        cases w.lists with
        | nil => rfl
        | cons x xs => rfl
  | .quoted a, s, h, hw => by
    simp only [WfTok] at hw
    have he := h.eq
    have hp : quoteEscape a = a := escape_plain fun c hc => ⟨(hw c hc).2.2.1, (hw c hc).2.2.2⟩
    obtain ⟨m', h1, h2, h3⟩ := goes_quoted next k w s.recvTag a [] 50 (by simp) (fun c hc => ⟨(hw c hc).1, (hw c hc).2.2.1⟩)
    have a1 : Goes next s [34] ⟨.quoted, s.recvTag, some k, w.items, w.lists, some ⟨[], 50⟩⟩ := by
      refine Goes.one (Or.inl (by decide)) ?_
      rw [he]; rfl
    have hat := grow_at (k := k) (w := w) (t := .string a) (s := ⟨.quoted, s.recvTag, some k, w.items, w.lists, some ⟨a, m'⟩⟩) rfl rfl rfl s.recvTag
    refine ⟨_, ?_, hat.done⟩
    simp only [wire, hp]
    refine (a1.trans h3).trans (Goes.one (Or.inl (by decide)) ?_)
    have hlt : a.length < m' + 1 := by simpa using Nat.lt_succ_of_le h1
    simp only [feedSwitch, if_true, Option.getD_some, WaitState.endString, TokBuf.finish, List.nil_append, hlt]
    show Except.ok _ = Except.ok _
    unfold WaitState.grow
    cases w.lists with
    | nil => rfl
    | cons x xs => rfl
  | .literal a, s, h, hw => by
    simp only [WfTok] at hw
    have he := h.eq
    have a1 : Goes next s [123] ⟨.count, 0, some k, w.items, w.lists, none⟩ := by
      refine Goes.one (Or.inl (by decide)) ?_
      rw [he]; rfl
    have a2 := goes_digits (next := next) (f := fun n => ⟨.count, n, some k, w.items, w.lists, none⟩) (by
      intro n d hd hle
      have h125 : UInt8.ofNat (48 + d) ≠ 125 := by
        have : ∀ d < 10, UInt8.ofNat (48 + d) ≠ 125 := by decide
        exact this d hd
      simp only [feedSwitch, h125, if_false, isDigit_ofNat hd, if_true, addDigit_digit hd hle]
      rfl) a.length hw
    have a3 : Goes next ⟨.count, a.length, some k, w.items, w.lists, none⟩ [125] ⟨.afterCount, a.length, some k, w.items, w.lists, none⟩ :=
      Goes.one (Or.inl (by decide)) rfl
    have a4 : Goes next ⟨.afterCount, a.length, some k, w.items, w.lists, none⟩ [13] ⟨.afterCount, a.length, some k, w.items, w.lists, none⟩ :=
      Goes.one (Or.inl (by decide)) rfl
    have a5 := ((a1.trans a2).trans a3).trans a4
    cases a with
    | nil =>
      have hat := grow_at (k := k) (w := w) (t := .string []) (s := ⟨.afterCount, 0, some k, w.items, w.lists, none⟩) rfl rfl rfl 0
      refine ⟨_, ?_, hat.done⟩
      have a6 := a5.trans (t' := [10]) (Goes.one (s' := { (⟨.afterCount, 0, some k, w.items, w.lists, none⟩ : WaitState).grow (.string []) with
          cur := none, linestate := .things, recvTag := 0 }) (Or.inr (Or.inl rfl)) (by
        show feedSwitch next ⟨.afterCount, 0, some k, w.items, w.lists, none⟩ 10 = _
        cases hh : w.lists <;> rfl))
      simpa [wire, bs] using a6
    | cons c a =>
      obtain ⟨s', h1, h2⟩ := goes_literal next k w (c :: a).length (c :: a).length (c :: a) [] (by simp) (by simp)
      have a6 := (a5.trans (t' := [10]) (Goes.one (s' := ⟨.literal, (c :: a).length, some k, w.items, w.lists, some ⟨[], (c :: a).length⟩⟩)
        (Or.inr (Or.inl rfl)) (by simp [feedSwitch]))).trans h2
      refine ⟨s', ?_, LineAt.done (by simpa [meant] using h1)⟩
      simpa [wire, bs] using a6
  | .list l, s, h, hw => by
    simp only [WfTok] at hw
    have he := h.eq
    have a1 : Goes next s [40] ⟨.things, s.recvTag, some k, w.items, (false, []) :: w.lists, none⟩ := by
      refine Goes.one (Or.inl (by decide)) ?_
      rw [he]; simp [feedSwitch, feedThing]
    have hat : LineAt k (w.down false) ⟨.things, s.recvTag, some k, w.items, (false, []) :: w.lists, none⟩ := ⟨rfl, rfl, rfl, rfl, rfl⟩
    obtain ⟨s2, h2, h3⟩ := goes_toks next k (w.down false) l _ hat (Or.inl (by simp [Sofar.down])) (by simpa [Sofar.down, Sofar.no] using hw)
    rw [down_pushes'] at h3
    obtain ⟨s3, h4, h5⟩ := Done.close (next := next) h3
    refine ⟨s3, ?_, by simpa [meant, mkList] using h5.done⟩
    have := (a1.trans h2).trans h4
    simpa [wire] using this

theorem goes_toks (next : Nat) (k : LineKind) (w : Sofar) : ∀ (l : List RespTok) (s : WaitState), LineAt k w s → w.Stable → WfToks w.no l →
    ∃ s', Goes next s (wires l) s' ∧ Done k (w.pushes (meants l)) s'
  | [], s, h, _, _ => ⟨s, Goes.refl _ _, h.done⟩
  | [t], s, h, _, hw => by
    simp only [WfToks, and_true] at hw
    simpa [wires, meants, Sofar.pushes] using goes_tok next k w t s h hw
  | t :: t' :: ts, s, h, hl, hw => by
    obtain ⟨h1, h2⟩ := hw
    obtain ⟨s1, a1, d1⟩ := goes_tok next k w t s h h1
    obtain ⟨s2, a2, d2⟩ := Done.space (next := next) (Or.inl rfl) d1
    obtain ⟨e1, e2⟩ := no_push (w := w) (t := meant t) hl
    obtain ⟨s3, a3, d3⟩ := goes_toks next k (w.push (meant t)) (t' :: ts) s2 d2 e2 (by rw [e1]; exact h2)
    exact ⟨s3, by simpa [wires] using (a1.trans a2).trans a3, d3⟩
end

/-! ## Lines -/

theorem top_pushes (l i : List ImapTok) : (⟨i, []⟩ : Sofar).pushes l = ⟨i ++ l, []⟩ := by
  induction l generalizing i with
  | nil => simp [Sofar.pushes]
  | cons t l ih => simp only [Sofar.pushes, Sofar.push]; rw [ih]; simp

theorem top_no {i : List ImapTok} (h : 2 ≤ i.length) : (⟨i, []⟩ : Sofar).no = none := by
  have : ¬ i.length = 1 := by omega
  simp [Sofar.no, this]

/-- Further items of the line, a space before each. -/
theorem goes_rest (next : Nat) (k : LineKind) {i : List ImapTok} (hi : 2 ≤ i.length) {l : List RespTok} {s : WaitState} (h : Done k ⟨i, []⟩ s)
    (hw : WfToks none l) : ∃ s', Goes next s (if l = [] then [] else [32] ++ wires l) s' ∧ Done k ⟨i ++ meants l, []⟩ s' := by
  cases l with
  | nil => exact ⟨s, by simpa using Goes.refl _ _, by simpa [meants] using h⟩
  | cons t ts =>
    obtain ⟨s1, a1, d1⟩ := Done.space (next := next) (Or.inl rfl) h
    obtain ⟨s2, a2, d2⟩ := goes_toks next k ⟨i, []⟩ (t :: ts) s1 d1 (Or.inr hi) (by rw [top_no hi]; exact hw)
    rw [top_pushes] at d2
    exact ⟨s2, by simpa using a1.trans a2, d2⟩

theorem goes_tail (next : Nat) (k : LineKind) (r : Response) {m : ImapTok} {s : WaitState} (h : Done k ⟨[m], []⟩ s) (hw : r.Wf) :
    ∃ s', Goes next s r.tail s' ∧
      Done k ⟨[m] ++ (match r.code with | none => [] | some l => [.sqlist (meants l)]) ++ meants r.rest, []⟩ s' := by
  obtain ⟨tag, first, code, rest⟩ := r
  obtain ⟨_, hw⟩ := hw
  simp only at hw
  simp only [Response.tail]
  cases code with
  | none =>
    simp only at hw
    cases rest with
    | nil => exact ⟨s, by simpa using Goes.refl _ _, by simpa [meants] using h⟩
    | cons t ts =>
      simp only at hw
      obtain ⟨s1, a1, d1⟩ := Done.space (next := next) (Or.inl rfl) h
      obtain ⟨s2, a2, d2⟩ := goes_tok next k ⟨[m], []⟩ t s1 d1 (by simpa [Sofar.no] using hw.1)
      obtain ⟨s3, a3, d3⟩ := goes_rest next k (i := [m, meant t]) (by simp) (by simpa [Sofar.push] using d2) hw.2
      refine ⟨s3, ?_, by simpa [meants] using d3⟩
      have := (a1.trans a2).trans a3
      cases ts with
      | nil => simpa [wires] using this
      | cons t' ts => simpa [wires] using this
  | some l =>
    simp only at hw
    obtain ⟨s1, a1, d1⟩ := Done.space (next := next) (Or.inl rfl) h
    have he := d1.eq
    have a2 : Goes next s1 [91] ⟨.things, s1.recvTag, some k, [m], [(true, [])], none⟩ := by
      refine Goes.one (Or.inl (by decide)) ?_
      rw [he]; simp [feedSwitch, feedThing]
    have hat : LineAt k ((⟨[m], []⟩ : Sofar).down true) ⟨.things, s1.recvTag, some k, [m], [(true, [])], none⟩ := ⟨rfl, rfl, rfl, rfl, rfl⟩
    obtain ⟨s3, a3, d3⟩ := goes_toks next k _ l _ hat (Or.inl (by simp [Sofar.down])) (by simpa [Sofar.down, Sofar.no] using hw.1)
    rw [down_pushes'] at d3
    obtain ⟨s4, a4, d4⟩ := Done.close (next := next) d3
    obtain ⟨s5, a5, d5⟩ := goes_rest next k (i := [m, .sqlist (meants l)]) (by simp) (by simpa [Sofar.push, mkList] using d4.done) hw.2
    refine ⟨s5, ?_, by simpa using d5⟩
    have := (((a1.trans a2).trans a3).trans a4).trans a5
    simpa [bs] using this

/-- The start of a line. -/
theorem goes_start (next : Nat) (tag : Option Nat) (ht : ∀ n, tag = some n → n + 1 = next ∧ n ≤ 2147483647) :
    ∃ s', Goes next {} (match tag with | none => bs "* " | some n => bs "t" ++ digits n ++ [32]) s' ∧
      LineAt (if tag.isSome then .tagged else .untagged) ⟨[], []⟩ s' := by
  cases tag with
  | none =>
    refine ⟨⟨.things, 0, some .untagged, [], [], none⟩, ?_, ⟨rfl, rfl, rfl, rfl, rfl⟩⟩
    exact (Goes.one (s := {}) (c := 42) (s' := { linestate := .star }) (Or.inl (by decide)) rfl).trans
      (Goes.one (c := 32) (Or.inl (by decide)) rfl)
  | some n =>
    obtain ⟨h1, h2⟩ := ht n rfl
    refine ⟨⟨.things, n, some .tagged, [], [], none⟩, ?_, ⟨rfl, rfl, rfl, rfl, rfl⟩⟩
    have a1 : Goes next {} [116] { linestate := .tag } := Goes.one (Or.inl (by decide)) rfl
    have a2 := goes_digits (next := next) (f := fun n => { linestate := .tag, recvTag := n }) (by
      intro n d hd hle
      have h32 : UInt8.ofNat (48 + d) ≠ 32 := by
        have : ∀ d < 10, UInt8.ofNat (48 + d) ≠ 32 := by decide
        exact this d hd
      simp only [feedSwitch, h32, if_false, isDigit_ofNat hd, if_true, addDigit_digit hd hle]
      rfl) n h2
    have a3 : Goes next { linestate := .tag, recvTag := n } [32] ⟨.things, n, some .tagged, [], [], none⟩ := by
      refine Goes.one (Or.inl (by decide)) ?_
      simp [feedSwitch, h1]
    exact (a1.trans a2).trans a3

/-- A response is read as what it means, and nothing behind it is read. -/
theorem feedBuf_response {next : Nat} {r : Response} (hw : r.Wf) (ht : ∀ n, r.tag = some n → n + 1 = next ∧ n ≤ 2147483647) (rest : Text) :
    feedBuf next {} (r.bytes ++ rest) = .ok (.inr (some r.line, rest)) := by
  obtain ⟨s1, a1, d1⟩ := goes_start next r.tag ht
  obtain ⟨s2, a2, d2⟩ := goes_tok next _ _ r.first s1 d1 (by simpa [Sofar.no] using hw.1)
  obtain ⟨s3, a3, d3⟩ := goes_tail next _ r (m := meant r.first) (by simpa [Sofar.push] using d2) hw
  obtain ⟨s4, a4, d4⟩ := Done.space (next := next) (Or.inr rfl) d3
  have := ((a1.trans a2).trans a3).trans a4 ([10] ++ rest)
  have e : r.bytes ++ rest = (match r.tag with | none => bs "* " | some n => bs "t" ++ digits n ++ [32]) ++ wire r.first ++ r.tail ++ [13] ++ ([10] ++ rest) := by
    simp only [Response.bytes, List.append_assoc]
    rfl
  rw [e, this, d4.eq]
  simp only [List.cons_append, List.nil_append, feedBuf, feed, ne_eq, reduceCtorEq, not_false_eq_true, and_self, if_true, WaitState.endLine,
    WaitState.flush, Except.map, bind, Except.bind, Option.map_some, collapse, List.append_nil]
  rfl

/-! ## However the bytes arrive -/

theorem feedBuf_append (next : Nat) : ∀ (a : Text) (s : WaitState) (b : Text),
    feedBuf next s (a ++ b) =
      (match feedBuf next s a with
       | .error e => .error e
       | .ok (.inl s') => feedBuf next s' b
       | .ok (.inr (r, rest)) => .ok (.inr (r, rest ++ b)))
  | [], s, b => rfl
  | c :: a, s, b => by
    simp only [List.cons_append, feedBuf]
    cases h : feed next s c with
    | error e => rfl
    | ok x =>
      cases x with
      | inl s' => exact feedBuf_append next a s' b
      | inr r => rfl

/-- The result only depends on the bytes. -/
theorem waitLoop_stream (next : Nat) : ∀ (reads : List Text) (s : WaitState) (buf : Text), (∀ r ∈ reads, r ≠ []) →
    match feedBuf next s (buf ++ reads.flatten) with
    | .error e => waitLoop next s buf reads = .error e
    | .ok (.inl _) => waitLoop next s buf reads = .ok (none, [], [])
    | .ok (.inr (r, rest)) => ∃ buf' reads', waitLoop next s buf reads = .ok (r, buf', reads') ∧ buf' ++ reads'.flatten = rest ∧
        (∀ r ∈ reads', r ≠ [])
  | [], s, buf, hr => by
    simp only [List.flatten_nil, List.append_nil]
    unfold waitLoop
    cases h : feedBuf next s buf with
    | error e => rfl
    | ok x =>
      cases x with
      | inl s' => rfl
      | inr p => obtain ⟨r, rest⟩ := p; exact ⟨rest, [], rfl, by simp, hr⟩
  | x :: reads, s, buf, hr => by
    have ih := fun s' => waitLoop_stream next reads s' x (fun r hh => hr r (List.mem_cons_of_mem _ hh))
    rw [feedBuf_append]
    unfold waitLoop
    cases h : feedBuf next s buf with
    | error e => rfl
    | ok y =>
      cases y with
      | inl s' =>
        have hx : ¬ x = [] := hr x (List.mem_cons_self ..)
        simp only [bind, Except.bind, hx, if_false]
        exact ih s'
      | inr p => obtain ⟨r, rest⟩ := p; exact ⟨rest, x :: reads, rfl, rfl, hr⟩

end Mairix
