import Verif.Proofs.DateScan

/-!
# Nothing else is read as a date
-/

namespace Mairix

open Spec

theorem follows_split {w v : List CharClass} {t : Text} (h : follows (w ++ v) t = true) : ∃ a b, t = a ++ b ∧ follows w a = true ∧ follows v b = true := by
  induction w generalizing t with
  | nil => exact ⟨[], t, rfl, rfl, h⟩
  | cons p w ih =>
    cases t with
    | nil => simp [follows] at h
    | cons c t =>
      simp only [List.cons_append, follows, Bool.and_eq_true] at h
      obtain ⟨a, b, rfl, h1, h2⟩ := ih h.2
      exact ⟨c :: a, b, rfl, by simp [follows, h.1, h1], h2⟩

theorem ways_split {p q : List (List CharClass)} {t : Text} (h : Ways (thenPaths p q) t) : ∃ a b, t = a ++ b ∧ Ways p a ∧ Ways q b := by
  obtain ⟨w, hw, hf⟩ := h
  simp only [thenPaths, List.mem_flatMap, List.mem_map] at hw
  obtain ⟨x, hx, y, hy, rfl⟩ := hw
  obtain ⟨a, b, rfl, h1, h2⟩ := follows_split hf
  exact ⟨a, b, rfl, ⟨x, hx, h1⟩, ⟨y, hy, h2⟩⟩

theorem follows_one {p : CharClass} {t : Text} (h : follows [p] t = true) : ∃ a, t = [a] ∧ p a = true := by
  match t, h with
  | [a], h => exact ⟨a, rfl, by simpa [follows] using h⟩
  | [], h => simp [follows] at h
  | _ :: _ :: _, h => simp [follows] at h

theorem follows_two {p q : CharClass} {t : Text} (h : follows [p, q] t = true) : ∃ a b, t = [a, b] ∧ p a = true ∧ q b = true := by
  obtain ⟨x, y, rfl, h1, h2⟩ := follows_split (w := [p]) (v := [q]) h
  obtain ⟨a, rfl, ha⟩ := follows_one h1
  obtain ⟨b, rfl, hb⟩ := follows_one h2
  exact ⟨a, b, rfl, ha, hb⟩

/-- The value of digits. -/
def valueOf (t : Text) : Nat := t.foldl (fun n c => 10 * n + (c.toNat - 0x30)) 0

theorem digitsOf_value {t : Text} (h0 : t ≠ []) (h : ∀ c ∈ t, isDigit c = true) : DigitsOf t (valueOf t) := ⟨h0, h, rfl⟩

theorem ways_day {t : Text} (h : Ways dayPaths t) : ∃ d, DayText t d := by
  obtain ⟨w, hw, hf⟩ := h
  simp only [dayPaths, List.mem_cons, List.not_mem_nil, or_false] at hw
  rcases hw with rfl | rfl | rfl
  · obtain ⟨a, rfl, ha⟩ := follows_one hf
    have := forall_byte (P := fun a => cPos a = true → isDigit a = true ∧ a ≠ 0x30 ∧ 1 ≤ valueOf [a] ∧ valueOf [a] ≤ 31) (by decide +kernel) a ha
    exact ⟨_, digitsOf_value (by simp) (by simpa using this.1), this.2.2.1, this.2.2.2, by simpa using this.2.1⟩
  · obtain ⟨a, b, rfl, ha, hb⟩ := follows_two hf
    have h1 := forall_byte (P := fun a => crange 0x31 0x32 a = true → a = 0x31 ∨ a = 0x32) (by decide +kernel) a ha
    have hb' : isDigit b = true := hb
    rcases h1 with rfl | rfl
    · have := forall_byte (P := fun b => isDigit b = true → 1 ≤ valueOf [0x31, b] ∧ valueOf [0x31, b] ≤ 31) (by decide +kernel) b hb'
      exact ⟨_, digitsOf_value (by simp) (by simpa using ⟨by decide, hb'⟩), this.1, this.2, by simp⟩
    · have := forall_byte (P := fun b => isDigit b = true → 1 ≤ valueOf [0x32, b] ∧ valueOf [0x32, b] ≤ 31) (by decide +kernel) b hb'
      exact ⟨_, digitsOf_value (by simp) (by simpa using ⟨by decide, hb'⟩), this.1, this.2, by simp⟩
  · obtain ⟨a, b, rfl, ha, hb⟩ := follows_two hf
    have h1 := forall_byte (P := fun a => crange 0x33 0x33 a = true → a = 0x33) (by decide +kernel) a ha
    have h2 := forall_byte (P := fun a => crange 0x30 0x31 a = true → a = 0x30 ∨ a = 0x31) (by decide +kernel) b hb
    subst h1
    rcases h2 with rfl | rfl
    · exact ⟨30, ⟨by decide, by decide, by decide⟩, by decide, by decide, by decide⟩
    · exact ⟨31, ⟨by decide, by decide, by decide⟩, by decide, by decide, by decide⟩

theorem ways_year {t : Text} (h : Ways yearPaths t) : ∃ y, YearText t y := by
  obtain ⟨w, hw, hf⟩ := h
  simp only [yearPaths, List.mem_cons, List.not_mem_nil, or_false] at hw
  rcases hw with rfl | rfl | rfl
  · obtain ⟨a, b, rfl, ha, hb⟩ := follows_two hf
    have h1 := forall_byte (P := fun a => (decide (a = 0x30) || crange 0x34 0x39 a) = true → isDigit a = true ∧ (a = 0x30 ∨ 4 ≤ a.toNat - 0x30)) (by decide +kernel) a ha
    have hb' : isDigit b = true := hb
    refine ⟨_, .short (digitsOf_value (by simp) (by simpa using ⟨h1.1, hb'⟩)) rfl ?_⟩
    rcases h1.2 with h | h
    · exact .inl (by simp [h])
    · right; simp only [valueOf, List.foldl_cons, List.foldl_nil]; omega
  · obtain ⟨a, b, rfl, ha, hb⟩ := follows_two hf
    have h1 := forall_byte (P := fun a => crange 0x33 0x33 a = true → a = 0x33) (by decide +kernel) a ha
    have h2 := forall_byte (P := fun b => crange 0x32 0x39 b = true → isDigit b = true ∧ 31 < valueOf [0x33, b]) (by decide +kernel) b hb
    subst h1
    exact ⟨_, .short (digitsOf_value (by simp) (by simpa using ⟨by decide, h2.1⟩)) rfl (.inr h2.2)⟩
  · obtain ⟨x, y, rfl, hx, hy⟩ := follows_split (w := [cPos, cDigit]) (v := [cDigit, cDigit]) hf
    obtain ⟨a, b, rfl, ha, hb⟩ := follows_two hx
    obtain ⟨c, d, rfl, hc, hd⟩ := follows_two hy
    have h1 := forall_byte (P := fun a => cPos a = true → isDigit a = true ∧ a ≠ 0x30) (by decide +kernel) a ha
    exact ⟨_, .long (digitsOf_value (by simp) (by simpa using ⟨h1.1, hb, hc, hd⟩)) rfl (by simpa using h1.2)⟩

theorem ways_digits {t : Text} (h : Ways digitPaths t) : (∀ c ∈ t, isDigit c = true) ∧ (t.length = 6 ∨ t.length = 8) := by
  obtain ⟨w, hw, hf⟩ := h
  simp only [digitPaths, List.mem_cons, List.not_mem_nil, or_false] at hw
  have key : ∀ (n : Nat) (t : Text), follows (List.replicate n cDigit) t = true → ∀ c ∈ t, isDigit c = true := by
    intro n
    induction n with
    | zero => intro t h; cases t with
      | nil => simp
      | cons _ _ => simp [follows] at h
    | succ n ih => intro t h; cases t with
      | nil => simp
      | cons a t =>
        simp only [List.replicate_succ, follows, Bool.and_eq_true] at h
        intro c hc
        rcases List.mem_cons.mp hc with rfl | hc
        · exact h.1
        · exact ih t h.2 c hc
  have hl := follows_length hf
  rcases hw with rfl | rfl
  · exact ⟨key _ t hf, .inl (by simpa using hl.symm)⟩
  · exact ⟨key _ t hf, .inr (by simpa using hl.symm)⟩

theorem ways_letters {t : Text} (h : Ways monthPaths t) : t.length = 3 ∧ ∀ c ∈ t, cLetter c = true := by
  obtain ⟨w, hw, hf⟩ := h
  simp only [monthPaths, List.mem_cons, List.not_mem_nil, or_false] at hw
  subst hw
  obtain ⟨x, y, rfl, hx, hy⟩ := follows_split (w := [cLetter]) (v := [cLetter, cLetter]) hf
  obtain ⟨a, rfl, ha⟩ := follows_one hx
  obtain ⟨b, c, rfl, hb, hc⟩ := follows_two hy
  exact ⟨rfl, by simpa using ⟨ha, hb, hc⟩⟩

/-- Three letters that are taken for a month are one. -/
theorem month_of_match {t r : Text} (hl : t.length = 3) (h : matchMonth (t ++ r) ≠ 0) : ∃ m, MonthText t m := by
  unfold matchMonth at h
  have ht : (t ++ r).take 3 = t := by rw [← hl]; simp
  cases e : [bs "jan", bs "feb", bs "mar", bs "apr", bs "may", bs "jun", bs "jul", bs "aug", bs "sep", bs "oct", bs "nov", bs "dec"].findIdx? (fun q => hasPrefixCase q (t ++ r)) with
  | none => simp [e] at h
  | some i =>
    obtain ⟨hi, hp, _⟩ := List.findIdx?_eq_some_iff_getElem.mp e
    refine ⟨i + 1, by omega, ?_⟩
    have hlen : ∀ q ∈ months, q.length = 3 ∧ lower q = q := by decide +kernel
    have hget : months[i]? = some ([bs "jan", bs "feb", bs "mar", bs "apr", bs "may", bs "jun", bs "jul", bs "aug", bs "sep", bs "oct", bs "nov", bs "dec"][i]) := List.getElem?_eq_getElem hi
    generalize [bs "jan", bs "feb", bs "mar", bs "apr", bs "may", bs "jun", bs "jul", bs "aug", bs "sep", bs "oct", bs "nov", bs "dec"][i] = q at hp hget
    obtain ⟨h3, hlow⟩ := hlen q (List.mem_of_getElem? hget)
    simp only [hasPrefixCase, decide_eq_true_eq, h3, ht, hlow] at hp
    rw [Nat.add_sub_cancel, hget, hp]

/-- A day in eight digits, in the first hundred years. -/
def EarlyText (t : Text) : Prop := t.length = 8 ∧ (∀ c ∈ t, isDigit c = true) ∧ valueOf (t.take 4) ≤ 100

/-- The text is a date of one of the documented forms (or a date in the first hundred years). -/
def DateForm (t : Text) : Prop := (∃ p, PeriodText t p) ∨ (∃ n, AgoText t n) ∨ EarlyText t

theorem digits_drop {t : Text} (hd : ∀ c ∈ t, isDigit c = true) (r : Text) (hr : ∀ c, r.head? = some c → isDigit c = false) : (t ++ r).dropWhile isDigit = r := by
  induction t with
  | nil => cases r with
    | nil => rfl
    | cons c r => rw [List.nil_append, List.dropWhile_cons, hr c rfl]; rfl
  | cons a t ih => rw [List.cons_append, List.dropWhile_cons, hd a (by simp)]; exact ih fun c hc => hd c (by simp [hc])

theorem letters_head {t : Text} (hl : t.length = 3) (hc : ∀ c ∈ t, cLetter c = true) (r : Text) : ∀ c, (t ++ r).head? = some c → isDigit c = false := by
  match t, hl, hc with
  | a :: t, _, hc =>
    intro c e
    simp only [List.cons_append, List.head?_cons, Option.some.injEq] at e
    subst e
    exact letter_not_digit (hc a (by simp))

theorem scanMonth_letters {t r : Text} (hl : t.length = 3) : scanMonth (t ++ r) = if matchMonth (t ++ r) = 0 then none else some (matchMonth (t ++ r), r) := by
  have hne : (t ++ r).isEmpty = false := by
    match t, hl with
    | _ :: _, _ => rfl
  simp only [scanMonth, hne, Bool.false_eq_true, if_false]
  rw [← hl]; simp

/-- What the type says of the text. -/
theorem type_ways {t : Text} {ty : DateType} (h : discoverType t = ty) (hs : ty ≠ .scaled) (hf : ty ≠ .failure) : ∃ q ∈ datePaths, q.2 = ty ∧ Ways q.1 t := by
  unfold discoverType at h
  split at h
  · exact absurd h.symm hs
  · cases e : datePaths.find? (fun p => p.1.any (fun w => follows w t)) with
    | none => rw [e] at h; exact absurd h.symm hf
    | some q =>
      rw [e] at h
      have hany := List.find?_some e
      obtain ⟨w, hw, hf⟩ := List.any_eq_true.mp hany
      exact ⟨q, List.mem_of_find?_eq_some e, h, w, hw, hf⟩

/-- A number, three letters (or nothing at all), a number: what all forms but the relative ones look like. -/
structure Shape (t a b c : Text) : Prop where
  whole : t = a ++ b ++ c
  first : ∀ x ∈ a, isDigit x = true
  middle : (b = [] ∧ c = []) ∨ (b.length = 3 ∧ ∀ x ∈ b, cLetter x = true)
  last : ∀ x ∈ c, isDigit x = true
  short : a.length ≤ 8 ∧ c.length ≤ 8

theorem scanNumber_short {d : Text} (hd : ∀ c ∈ d, isDigit c = true) (hl : d.length ≤ 8) (r : Text) (hr : ∀ c, r.head? = some c → isDigit c = false) : scanNumber 0 (d ++ r) = .ok (valueOf d) := by
  apply scanNumber_digits hd hr
  have := foldl_digits_lt d 0 hd
  have h10 : 10 ^ d.length ≤ 10 ^ 8 := Nat.pow_le_pow_right (by decide) hl
  omega

/-- What is read from a text of that shape: nothing if the letters are no month. -/
theorem shape_scan {now : Int} {t a b c : Text} {ty : DateType} (hp : plainType ty = true) (hs : Shape t a b c) (ht : discoverType t = ty) :
    scanExpr now t = .ok (if b ≠ [] ∧ matchMonth (b ++ c) = 0 then none else some (.absolute ty (valueOf a) (if b = [] then 0 else matchMonth (b ++ c)) (valueOf c))) := by
  obtain ⟨rfl, ha, hm, hc, hl1, hl2⟩ := hs
  have h3 : scanNumber 0 c = .ok (valueOf c) := by have := scanNumber_short hc hl2 [] (by simp); rwa [List.append_nil] at this
  have h4 : c.dropWhile isDigit = [] := by have := digits_drop hc [] (by simp); rwa [List.append_nil] at this
  rcases hm with ⟨rfl, rfl⟩ | ⟨hl, hb⟩
  · simp only [List.append_nil] at ht ⊢
    have h1 := scanNumber_short ha hl1 [] (by simp)
    have h2 := digits_drop ha [] (by simp)
    rw [List.append_nil] at h1 h2
    rw [scan_parts (p := []) ht hp h1 (by rw [h2]; rfl) rfl rfl]
    simp [valueOf]
  · have hne : b ≠ [] := by intro e; rw [e] at hl; simp at hl
    have hh := letters_head hl hb c
    rw [List.append_assoc] at ht ⊢
    have h1 := scanNumber_short ha hl1 (b ++ c) hh
    have h2 := digits_drop ha (b ++ c) hh
    have hsm := scanMonth_letters (r := c) hl
    by_cases h0 : matchMonth (b ++ c) = 0
    · rw [if_pos h0] at hsm
      rw [if_pos ⟨hne, h0⟩]
      unfold scanExpr
      rw [ht]
      cases ty <;> first | (simp [plainType] at hp; done) | (simp only [h1, h2, hsm, bind, Except.bind])
    · rw [if_neg h0] at hsm
      rw [if_neg (by simp [h0]), if_neg hne]
      exact scan_parts (p := c) ht hp h1 (by rw [h2, hsm]) h3 h4

theorem day_len {t : Text} {d : Nat} (h : DayText t d) : t.length ≤ 8 := by
  have := digits_short h.1 h.2.2.2 (by have := h.2.2.1; omega); omega

theorem year_len {t : Text} {y : Nat} (h : YearText t y) : t.length ≤ 8 := by
  cases h <;> omega

theorem year_digits {t : Text} {y : Nat} (h : YearText t y) : ∀ c ∈ t, isDigit c = true := by
  obtain ⟨n, hn, _⟩ := yearText_num h; exact hn.digits.2.1

theorem split_digits {t : Text} {n k : Nat} (hl : t.length = n + k + 2) (h : ∀ c ∈ t, isDigit c = true) (hn : 0 < n) (hk : 0 < k) :
    ∃ a b c, t = a ++ b ++ c ∧ a.length = n ∧ b.length = k ∧ c.length = 2 ∧ DigitsOf a (valueOf a) ∧ DigitsOf b (valueOf b) ∧ DigitsOf c (valueOf c) := by
  refine ⟨t.take n, (t.drop n).take k, (t.drop n).drop k, by rw [List.append_assoc, List.take_append_drop, List.take_append_drop], by simp; omega, by simp; omega, by simp; omega, ?_, ?_, ?_⟩
  · exact digitsOf_value (by intro e; have := congrArg List.length e; simp only [List.length_take, List.length_drop, List.length_nil] at this; omega) fun c hc => h c (List.mem_of_mem_take hc)
  · exact digitsOf_value (by intro e; have := congrArg List.length e; simp only [List.length_take, List.length_drop, List.length_nil] at this; omega) fun c hc => h c (List.mem_of_mem_drop (List.mem_of_mem_take hc))
  · exact digitsOf_value (by intro e; have := congrArg List.length e; simp only [List.length_take, List.length_drop, List.length_nil] at this; omega) fun c hc => h c (List.mem_of_mem_drop (List.mem_of_mem_drop hc))

/-- Every text that goes one of the ways has that shape, and is of a documented form unless its letters are no month. -/
theorem ways_shape {q : List (List CharClass) × DateType} {t : Text} (hq : q ∈ datePaths) (h : Ways q.1 t) :
    plainType q.2 = true ∧ ∃ a b c, Shape t a b c ∧ ((b ≠ [] ∧ matchMonth (b ++ c) = 0) ∨ DateForm t) := by
  have month : ∀ {b : Text} (c : Text), Ways monthPaths b → (b ≠ [] ∧ matchMonth (b ++ c) = 0) ∨ ∃ m, MonthText b m := by
    intro b c hb
    have hl := (ways_letters hb).1
    by_cases h0 : matchMonth (b ++ c) = 0
    · exact .inl ⟨by intro e; rw [e] at hl; simp at hl, h0⟩
    · exact .inr (month_of_match hl h0)
  simp only [datePaths, List.mem_cons, List.not_mem_nil, or_false] at hq
  rcases hq with rfl | rfl | rfl | rfl | rfl | rfl | rfl | rfl | rfl | rfl <;> refine ⟨rfl, ?_⟩
  · obtain ⟨d, hd⟩ := ways_day h
    exact ⟨t, [], [], ⟨by simp, hd.1.2.1, .inl ⟨rfl, rfl⟩, by simp, day_len hd, by simp⟩, .inr (.inl ⟨_, .day hd⟩)⟩
  · obtain ⟨y, hy⟩ := ways_year h
    exact ⟨t, [], [], ⟨by simp, year_digits hy, .inl ⟨rfl, rfl⟩, by simp, year_len hy, by simp⟩, .inr (.inl ⟨_, .year hy⟩)⟩
  · obtain ⟨hd, hl⟩ := ways_digits h
    refine ⟨t, [], [], ⟨by simp, hd, .inl ⟨rfl, rfl⟩, by simp, by omega, by simp⟩, .inr ?_⟩
    rcases hl with hl | hl
    · obtain ⟨a, b, c, rfl, h1, h2, h3, ha, hb, hc⟩ := split_digits (n := 2) (k := 2) hl hd (by decide) (by decide)
      exact .inl ⟨_, .digits6 ha hb hc h1 h2 h3⟩
    · by_cases he : valueOf (t.take 4) ≤ 100
      · exact .inr (.inr ⟨hl, hd, he⟩)
      · obtain ⟨a, b, c, rfl, h1, h2, h3, ha, hb, hc⟩ := split_digits (n := 4) (k := 2) hl hd (by decide) (by decide)
        have : (a ++ b ++ c).take 4 = a := by rw [← h1]; simp
        rw [this] at he
        exact .inl ⟨_, .digits8 ha hb hc h1 h2 h3 (by omega)⟩
  · refine ⟨[], t, [], ⟨by simp, by simp, .inr (ways_letters h), by simp, by simp, by simp⟩, ?_⟩
    rcases month [] h with h0 | ⟨m, hm⟩
    · exact .inl h0
    · exact .inr (.inl ⟨_, .month hm⟩)
  · obtain ⟨a, b, rfl, ha, hb⟩ := ways_split h
    obtain ⟨d, hd⟩ := ways_day ha
    refine ⟨a, b, [], ⟨by simp, hd.1.2.1, .inr (ways_letters hb), by simp, day_len hd, by simp⟩, ?_⟩
    rcases month [] hb with h0 | ⟨m, hm⟩
    · exact .inl h0
    · exact .inr (.inl ⟨_, .dayMonth hd hm⟩)
  · obtain ⟨a, b, rfl, ha, hb⟩ := ways_split h
    obtain ⟨d, hd⟩ := ways_day hb
    refine ⟨[], a, b, ⟨by simp, by simp, .inr (ways_letters ha), hd.1.2.1, by simp, day_len hd⟩, ?_⟩
    rcases month b ha with h0 | ⟨m, hm⟩
    · exact .inl h0
    · exact .inr (.inl ⟨_, .monthDay hm hd⟩)
  · obtain ⟨a, b, rfl, ha, hb⟩ := ways_split h
    obtain ⟨y, hy⟩ := ways_year ha
    refine ⟨a, b, [], ⟨by simp, year_digits hy, .inr (ways_letters hb), by simp, year_len hy, by simp⟩, ?_⟩
    rcases month [] hb with h0 | ⟨m, hm⟩
    · exact .inl h0
    · exact .inr (.inl ⟨_, .yearMonth hy hm⟩)
  · obtain ⟨a, b, rfl, ha, hb⟩ := ways_split h
    obtain ⟨y, hy⟩ := ways_year hb
    refine ⟨[], a, b, ⟨by simp, by simp, .inr (ways_letters ha), year_digits hy, by simp, year_len hy⟩, ?_⟩
    rcases month b ha with h0 | ⟨m, hm⟩
    · exact .inl h0
    · exact .inr (.inl ⟨_, .monthYear hm hy⟩)
  · obtain ⟨a, b', rfl, ha, hb'⟩ := ways_split h
    obtain ⟨b, c, rfl, hb, hc⟩ := ways_split hb'
    obtain ⟨y, hy⟩ := ways_year ha
    obtain ⟨d, hd⟩ := ways_day hc
    refine ⟨a, b, c, ⟨by simp, year_digits hy, .inr (ways_letters hb), hd.1.2.1, year_len hy, day_len hd⟩, ?_⟩
    rcases month c hb with h0 | ⟨m, hm⟩
    · exact .inl h0
    · rw [← List.append_assoc]; exact .inr (.inl ⟨_, .yearMonthDay hy hm hd⟩)
  · obtain ⟨a, b', rfl, ha, hb'⟩ := ways_split h
    obtain ⟨b, c, rfl, hb, hc⟩ := ways_split hb'
    obtain ⟨d, hd⟩ := ways_day ha
    obtain ⟨y, hy⟩ := ways_year hc
    refine ⟨a, b, c, ⟨by simp, hd.1.2.1, .inr (ways_letters hb), year_digits hy, day_len hd, year_len hy⟩, ?_⟩
    rcases month c hb with h0 | ⟨m, hm⟩
    · exact .inl h0
    · rw [← List.append_assoc]; exact .inr (.inl ⟨_, .dayMonthYear hd hm hy⟩)

theorem scaled_split {t : Text} (h : isScaled t = true) : ∃ d c, t = d ++ [c] ∧ d ≠ [] ∧ (∀ x ∈ d, isDigit x = true) ∧ cLetter c = true := by
  have rest : ∀ t : Text, isScaled.rest t = true → ∃ d c, t = d ++ [c] ∧ (∀ x ∈ d, isDigit x = true) ∧ cLetter c = true := by
    intro t
    induction t with
    | nil => simp [isScaled.rest]
    | cons a t ih =>
      cases t with
      | nil => intro h; exact ⟨[], a, rfl, by simp, h⟩
      | cons b t =>
        intro h
        simp only [isScaled.rest, Bool.and_eq_true] at h
        obtain ⟨d, c, e, h1, h2⟩ := ih h.2
        refine ⟨a :: d, c, by rw [e]; rfl, ?_, h2⟩
        intro x hx
        rcases List.mem_cons.mp hx with rfl | hx
        · exact h.1
        · exact h1 x hx
  cases t with
  | nil => simp [isScaled] at h
  | cons a t =>
    simp only [isScaled, Bool.and_eq_true] at h
    obtain ⟨d, c, e, h1, h2⟩ := rest t h.2
    refine ⟨a :: d, c, by rw [e]; rfl, by simp, ?_, h2⟩
    intro x hx
    rcases List.mem_cons.mp hx with rfl | hx
    · exact h.1
    · exact h1 x hx

theorem scanNumber_fault {v : Nat} {t : Text} {f : Fault} (h : scanNumber v t = .error f) : f = .overflow := by
  induction t generalizing v with
  | nil => simp [scanNumber] at h
  | cons c t ih =>
    simp only [scanNumber] at h
    split at h
    · split at h
      · exact ih h
      · injection h with e; exact e.symm
    · simp at h

theorem scaleNumber_cases (v : Nat) (c : UInt8) : scaleNumber v c = .error .overflow ∨ scaleNumber v c = .ok none ∨ ∃ k, UnitDays c k ∧ scaleNumber v c = .ok (some (v * (k * 86400))) := by
  have hb : ∀ f, scaleBy v f = .error .overflow ∨ scaleBy v f = .ok (some (v * f)) := by
    intro f; unfold scaleBy; split
    · exact .inr rfl
    · exact .inl rfl
  unfold scaleNumber
  split
  · rename_i e; subst e
    rcases hb 86400 with h | h
    · exact .inl h
    · exact .inr (.inr ⟨1, .day, by rw [h]⟩)
  · split
    · rename_i e; subst e
      rcases hb (7 * 86400) with h | h
      · exact .inl h
      · exact .inr (.inr ⟨7, .week, by rw [h]⟩)
    · split
      · rename_i e; subst e
        rcases hb (30 * 86400) with h | h
        · exact .inl h
        · exact .inr (.inr ⟨30, .month, by rw [h]⟩)
      · split
        · rename_i e; subst e
          rcases hb (365 * 86400) with h | h
          · exact .inl h
          · exact .inr (.inr ⟨365, .year, by rw [h]⟩)
        · exact .inr (.inl rfl)

/-- What `scan_date_expr` can do with a text: refuse it, accept it, and then it is of a documented form, or overflow, and then it is digits and a letter. -/
theorem scan_cases (now : Int) (t : Text) :
    scanExpr now t = .ok none ∨ (∃ s, scanExpr now t = .ok (some s) ∧ DateForm t) ∨ (scanExpr now t = .error .overflow ∧ ∃ d c, t = d ++ [c] ∧ d ≠ [] ∧ (∀ x ∈ d, isDigit x = true) ∧ cLetter c = true) := by
  cases e : isScaled t with
  | true =>
    obtain ⟨d, c, rfl, hne, hd, hc⟩ := scaled_split e
    have ht := type_scaled hne hd hc
    have hdrop := digits_drop hd [c] (by simpa using letter_not_digit hc)
    unfold scanExpr
    rw [ht]
    simp only [hdrop]
    cases hs : scanNumber 0 (d ++ [c]) with
    | error f =>
      have := scanNumber_fault hs; subst this
      exact .inr (.inr ⟨rfl, d, c, rfl, hne, hd, hc⟩)
    | ok v =>
      simp only [bind, Except.bind]
      rcases scaleNumber_cases v c with h | h | ⟨k, hk, h⟩
      · rw [h]; exact .inr (.inr ⟨rfl, d, c, rfl, hne, hd, hc⟩)
      · rw [h]; exact .inl rfl
      · rw [h]; exact .inr (.inl ⟨_, rfl, .inr (.inl ⟨_, .mk (digitsOf_value hne hd) hk⟩)⟩)
  | false =>
    by_cases hf : discoverType t = .failure
    · left; unfold scanExpr; rw [hf]
    · have hns : discoverType t ≠ .scaled := by
        unfold discoverType
        rw [e]
        simp only [Bool.false_eq_true, if_false]
        cases e2 : datePaths.find? (fun p => p.1.any (fun w => follows w t)) with
        | none => simp
        | some q =>
          have hq := List.mem_of_find?_eq_some e2
          have hany := List.find?_some e2
          obtain ⟨w, hw, hf⟩ := List.any_eq_true.mp hany
          have := (ways_shape hq ⟨w, hw, hf⟩).1
          intro h; rw [show q.2 = .scaled from h] at this; simp [plainType] at this
      obtain ⟨q, hq, hqt, hw⟩ := type_ways rfl hns hf
      obtain ⟨hp, a, b, c, hs, hcase⟩ := ways_shape hq hw
      rw [shape_scan hp hs hqt.symm]
      rcases hcase with h0 | hform
      · left; rw [if_pos h0]
      · by_cases h0 : b ≠ [] ∧ matchMonth (b ++ c) = 0
        · left; rw [if_pos h0]
        · right; left; rw [if_neg h0]; exact ⟨_, rfl, hform⟩

end Mairix
