import Verif.Model.Glob
import Verif.Spec.Glob

/-!
# Colon separated lists
-/

namespace Mairix
open Spec

/-- The colon at `i`, if there is one, has a backslash before it. -/
def EscapedAt (s : Text) (i : Nat) : Prop := s[i]? = some 0x3a → 0 < i ∧ s[i - 1]? = some 0x5c

theorem colonFrom_none {s : Text} {i : Nat} (h : colonFrom s i = none) : ∀ k, i ≤ k → s[k]? ≠ some 0x3a := by
  intro k hk hc
  simp only [colonFrom, Option.map_eq_none_iff, List.findIdx?_eq_none_iff] at h
  have : (0x3a : UInt8) ∈ s.drop i := by
    rw [List.mem_iff_getElem?]
    exact ⟨k - i, by rw [List.getElem?_drop, show i + (k - i) = k by omega]; exact hc⟩
  have := h _ this
  simp at this

theorem colonFrom_some {s : Text} {i j : Nat} (h : colonFrom s i = some j) : i ≤ j ∧ s[j]? = some 0x3a ∧ ∀ k, i ≤ k → k < j → s[k]? ≠ some 0x3a := by
  simp only [colonFrom, Option.map_eq_some_iff] at h
  obtain ⟨a, ha, rfl⟩ := h
  rw [List.findIdx?_eq_some_iff_getElem] at ha
  obtain ⟨h1, h2, h3⟩ := ha
  refine ⟨by omega, ?_, ?_⟩
  · have : (s.drop i)[a]? = some 0x3a := by
      rw [List.getElem?_eq_getElem h1]; simpa using h2
    rw [List.getElem?_drop] at this
    rw [Nat.add_comm]; exact this
  · intro k hk hka hc
    have h4 := h3 (k - i) (by omega)
    have : (s.drop i)[k - i]? = some 0x3a := by
      rw [List.getElem?_drop, show i + (k - i) = k by omega]; exact hc
    rw [List.getElem?_eq_getElem (by omega)] at this
    simp only [Option.some.injEq] at this
    rw [this] at h4
    simp at h4

/-- What the search for the end of an item finds. -/
def ItemEnd (s : Text) : Option Nat → Prop
  | none => ∀ k, EscapedAt s k
  | some j => s[j]? = some 0x3a ∧ ¬ EscapedAt s j ∧ ∀ k, k < j → EscapedAt s k

theorem nextColon_ok (s : Text) : ∀ (fuel i : Nat), s.length < fuel + i → i < s.length → (∀ k, k ≤ i → EscapedAt s k) →
    ∃ r, nextColon s fuel i = .ok r ∧ ItemEnd s r
  | 0, i, hf, hi, he => by omega
  | fuel + 1, i, hf, hi, he => by
    rw [nextColon]
    cases h : colonFrom s (i + 1) with
    | none =>
      refine ⟨none, rfl, fun k => ?_⟩
      by_cases hk : k ≤ i
      · exact he k hk
      · intro hc; exact absurd hc (colonFrom_none h k (by omega))
    | some j =>
      obtain ⟨h1, h2, h3⟩ := colonFrom_some h
      have hall : ∀ k, k < j → EscapedAt s k := by
        intro k hk
        by_cases hki : k ≤ i
        · exact he k hki
        · intro hc; exact absurd hc (h3 k (by omega) hk)
      dsimp only
      split
      · rename_i hb
        refine nextColon_ok s fuel j (by omega) ((List.getElem?_eq_some_iff.1 h2).1) (fun k hk => ?_)
        by_cases hkj : k = j
        · subst hkj; intro _; exact ⟨by omega, hb⟩
        · exact hall k (by omega)
      · rename_i hb
        refine ⟨some j, rfl, h2, fun hc => hb (hc h2).2, hall⟩

theorem itemColon_ok (s : Text) : ∃ r, itemColon s = .ok r ∧ ItemEnd s r := by
  rw [itemColon]
  cases h : colonFrom s 0 with
  | none => exact ⟨none, rfl, fun k hc => absurd hc (colonFrom_none h k (by omega))⟩
  | some i =>
    obtain ⟨h1, h2, h3⟩ := colonFrom_some h
    have hall : ∀ k, k < i → EscapedAt s k := fun k hk hc => absurd hc (h3 k (by omega) hk)
    dsimp only
    split
    · rename_i hb
      refine nextColon_ok s _ i (by omega) ((List.getElem?_eq_some_iff.1 h2).1) (fun k hk => ?_)
      by_cases hki : k = i
      · subst hki; exact fun _ => hb
      · exact hall k (by omega)
    · rename_i hb
      exact ⟨some i, rfl, h2, fun hc => hb (hc h2), hall⟩

theorem colonsEscaped_of {s : Text} (h : ∀ k, EscapedAt s k) : ColonsEscaped s := by
  rintro a b rfl
  obtain ⟨h1, h2⟩ := h a.length (by simp)
  refine ⟨a.dropLast, ?_⟩
  have hne : a ≠ [] := by rintro rfl; simp at h1
  rw [List.getElem?_append_left (by omega)] at h2
  have : a.getLast hne = 0x5c := by
    rw [List.getLast_eq_getElem]
    rw [List.getElem?_eq_getElem (by omega)] at h2
    simpa using h2
  rw [← this, List.dropLast_concat_getLast hne]

theorem itemEnd_some {s : Text} {j : Nat} (h : ItemEnd s (some j)) :
    ∃ p s', s = p ++ 0x3a :: s' ∧ p.length = j ∧ ColonsEscaped p ∧ ∀ a, p ≠ a ++ [0x5c] := by
  obtain ⟨h1, h2, h3⟩ := h
  obtain ⟨hj, hc⟩ := List.getElem?_eq_some_iff.1 h1
  have hs : s = s.take j ++ 0x3a :: s.drop (j + 1) := by
    rw [← hc, ← List.drop_eq_getElem_cons hj, List.take_append_drop]
  have hl : (s.take j).length = j := by rw [List.length_take]; omega
  refine ⟨s.take j, s.drop (j + 1), hs, hl, ?_, ?_⟩
  · apply colonsEscaped_of
    intro k hk
    have hkj : k < j := by
      have := (List.getElem?_eq_some_iff.1 hk).1; omega
    rw [List.getElem?_take_of_lt hkj] at hk
    obtain ⟨a, b⟩ := h3 k hkj hk
    exact ⟨a, by rw [List.getElem?_take_of_lt (by omega)]; exact b⟩
  · intro a e
    apply h2
    intro _
    have hla : a.length + 1 = j := by rw [← hl, e]; simp
    refine ⟨by omega, ?_⟩
    have : (s.take j)[j - 1]? = some 0x5c := by
      rw [e, show j - 1 = a.length by omega]; simp
    rw [List.getElem?_take_of_lt (by omega)] at this
    exact this

theorem copyLoop_ok (q : Text) : ∀ (p : Text), ((∀ a, p ≠ a ++ [0x5c]) ∨ q.head? ≠ some 0x3a) → copyLoop p.length (p ++ q) = unescape p
  | [], _ => by cases q <;> rfl
  | [c], h => by
    simp only [List.length_cons, List.length_nil, Nat.zero_add, List.cons_append, List.nil_append, unescape, copyLoop]
    rw [if_neg]
    rintro ⟨rfl, h2⟩
    rcases h with h | h
    · exact h [] rfl
    · exact h h2
  | c :: d :: p, h => by
    have ih := copyLoop_ok q (d :: p) (by
      rcases h with h | h
      · exact .inl fun a e => h (c :: a) (by rw [e]; rfl)
      · exact .inr h)
    simp only [List.length_cons, List.cons_append] at ih ⊢
    rw [copyLoop, unescape]
    simp only [List.head?_cons, Option.some.injEq]
    split
    · exact ih
    · rw [ih]

theorem splitLoop_ok : ∀ (fuel : Nat) (s : Text), s.length < fuel →
    ∃ l, SplitsAtColons s l ∧ (s = [] → l = [[]]) ∧ splitLoop fuel s = .ok ((dropEmptyLast l).map unescape)
  | 0, s, h => by omega
  | fuel + 1, s, h => by
    obtain ⟨r, e, hr⟩ := itemColon_ok s
    cases r with
    | none =>
      refine ⟨[s], .last (colonsEscaped_of hr), fun h => by rw [h], ?_⟩
      rw [splitLoop]
      simp only [e, bind, Except.bind, if_true, dropEmptyLast, List.length_cons, List.length_nil]
      have := copyLoop_ok [] s (.inr (by simp))
      rw [List.append_nil] at this
      simp [copyFolderName, this]
    | some j =>
      obtain ⟨p, s', rfl, rfl, hp, hn⟩ := itemEnd_some hr
      simp only [List.length_append, List.length_cons] at h
      obtain ⟨l, hl, hnil, e2⟩ := splitLoop_ok fuel s' (by omega)
      refine ⟨p :: l, .more hp hn hl, by simp, ?_⟩
      rw [splitLoop]
      have hd : (p ++ 0x3a :: s').drop (p.length + 1) = s' := by simp
      have hc : copyFolderName (p ++ 0x3a :: s') (some p.length) = unescape p := copyLoop_ok _ p (.inl hn)
      simp only [e, bind, Except.bind, hd, hc]
      by_cases h0 : s' = []
      · rw [if_pos h0, hnil h0]
        simp [dropEmptyLast]
      · rw [if_neg h0, e2]
        have hll : dropEmptyLast (p :: l) = p :: dropEmptyLast l := by
          have hne : l ≠ [] := by cases hl <;> simp
          by_cases h1 : l.length = 1
          · obtain ⟨x, rfl⟩ := List.length_eq_one_iff.1 h1
            have hx : x = s' := by
              cases hl with
              | last _ => rfl
              | more _ _ h => cases h
            subst hx
            simp [dropEmptyLast, h0]
          · have : 1 < l.length := by have := List.length_pos_iff.2 hne; omega
            unfold dropEmptyLast
            obtain ⟨x, y, t, rfl⟩ : ∃ x y t, l = x :: y :: t := by
              match l, this with
              | x :: y :: t, _ => exact ⟨x, y, t, rfl⟩
            simp only [List.length_cons, List.getLast?_cons_cons]
            split
            · rename_i hh
              rw [if_pos ⟨by omega, hh.2⟩]; rfl
            · rename_i hh
              rw [if_neg]
              intro hc; exact hh ⟨by omega, hc.2⟩
        rw [hll]; rfl

/-- There is only one way to split a text. -/
theorem splitsAtColons_unique {s : Text} {l l' : List Text} (h : SplitsAtColons s l) (h' : SplitsAtColons s l') : l = l' := by
  have esc : ∀ (p q t : Text), ColonsEscaped (p ++ 0x3a :: q) → (∀ a, p ≠ a ++ [0x5c]) → False := by
    intro p q t h1 h2
    obtain ⟨a, e⟩ := h1 p q rfl
    exact h2 a e
  induction h generalizing l' with
  | last hp =>
    cases h' with
    | last _ => rfl
    | more hq hn _ => exact (esc _ _ [] hp hn).elim
  | @more p s l hp hn hs ih =>
    generalize hu : p ++ 0x3a :: s = u at h'
    cases h' with
    | last hq => subst hu; exact (esc _ _ [] hq hn).elim
    | @more q s2 l2 hq hn2 hs2 =>
      have : p = q ∧ s = s2 := by
        rcases List.append_eq_append_iff.1 hu with ⟨a, e1, e2⟩ | ⟨a, e1, e2⟩
        · cases a with
          | nil => simp at e1 e2; exact ⟨e1.symm, e2⟩
          | cons x a =>
            simp only [List.cons_append, List.cons.injEq] at e2
            obtain ⟨rfl, e2⟩ := e2
            subst e1
            exact (esc _ _ [] hq hn).elim
        · cases a with
          | nil => simp at e1 e2; exact ⟨e1, e2.symm⟩
          | cons x a =>
            simp only [List.cons_append, List.cons.injEq] at e2
            obtain ⟨rfl, e2⟩ := e2
            subst e1
            exact (esc _ _ [] hp hn2).elim
      obtain ⟨rfl, rfl⟩ := this
      rw [ih hs2]

theorem escape_cons (c : UInt8) (t : Text) : escape (c :: t) = (if c = 0x3a then [0x5c, 0x3a] else [c]) ++ escape t := rfl

theorem unescape_cons (c : UInt8) (t : Text) : unescape (c :: t) = if c = 0x5c ∧ t.head? = some 0x3a then unescape t else c :: unescape t := by
  cases t with
  | nil => simp [unescape]
  | cons d t => simp [unescape]

theorem unescape_escape (t : Text) : unescape (escape t) = t := by
  induction t with
  | nil => rfl
  | cons c t ih =>
    rw [escape_cons]
    by_cases h : c = 0x3a
    · subst h
      simp only [if_true, List.cons_append, List.nil_append]
      rw [unescape_cons, if_pos (by simp), unescape_cons, if_neg (by simp), ih]
    · rw [if_neg h, List.singleton_append, unescape_cons, if_neg, ih]
      rintro ⟨_, h2⟩
      cases t with
      | nil => simp [escape] at h2
      | cons d t =>
        rw [escape_cons] at h2
        by_cases hd : d = 0x3a
        · simp [hd] at h2
        · simp [hd] at h2

theorem colonsEscaped_escape (t : Text) : ColonsEscaped (escape t) := by
  induction t with
  | nil => intro a b h; simp [escape] at h
  | cons c t ih =>
    intro a b h
    rw [escape_cons] at h
    by_cases hc : c = 0x3a
    · simp only [hc, if_true, List.cons_append, List.nil_append] at h
      match a, h with
      | [], h => simp at h
      | [x], h => simp at h; exact ⟨[], by simp [h.1]⟩
      | x :: y :: a, h =>
        simp only [List.cons_append, List.cons.injEq] at h
        obtain ⟨a', e⟩ := ih a b h.2.2
        exact ⟨x :: y :: a', by rw [e]; rfl⟩
    · simp only [hc, if_false, List.cons_append, List.nil_append] at h
      match a, h with
      | [], h => simp at h; exact absurd h.1 hc
      | x :: a, h =>
        simp only [List.cons_append, List.cons.injEq] at h
        obtain ⟨a', e⟩ := ih a b h.2
        exact ⟨x :: a', by rw [e]; rfl⟩

theorem escape_getLast (t : Text) : (escape t).getLast? = t.getLast? := by
  induction t with
  | nil => rfl
  | cons c t ih =>
    rw [escape_cons, List.getLast?_append, ih]
    cases t with
    | nil => by_cases h : c = 0x3a <;> simp [h]
    | cons d t => simp [List.getLast?_cons_cons, List.getLast?_cons]

theorem escape_eq_nil {t : Text} : escape t = [] ↔ t = [] := by
  cases t with
  | nil => simp [escape]
  | cons c t => rw [escape_cons]; split <;> simp

theorem splits_join : ∀ (l : List Text), l ≠ [] → (∀ t ∈ l.dropLast, t.getLast? ≠ some 0x5c) → SplitsAtColons (joinColons l) (l.map escape)
  | [], h, _ => absurd rfl h
  | [t], _, _ => .last (colonsEscaped_escape t)
  | t :: u :: l, _, h => by
    refine .more (colonsEscaped_escape t) ?_ (splits_join (u :: l) (by simp) fun x hx => h x (by simp at hx ⊢; exact .inr hx))
    intro a e
    have := escape_getLast t
    rw [e] at this
    exact h t (by simp) (by rw [← this]; simp)

theorem splitOnColons_ok {s : Text} {l : List Text} (h : SplitsAtColons s l) : splitOnColons s = .ok ((dropEmptyLast l).map unescape) := by
  obtain ⟨l', h', _, e⟩ := splitLoop_ok (s.length + 1) s (by omega)
  rw [splitsAtColons_unique h h']
  exact e

end Mairix
