import Verif.Spec.Mime
import Verif.Props.Expand
import Verif.Proofs.Header
import Verif.Proofs.Bytes

/-!
# C53: the date of a message
-/

namespace Mairix
open Spec

theorem dropWhile_to {α : Type} {p : α → Bool} {a b : List α} (ha : ∀ c ∈ a, p c = true) (hb : ∀ c, b.head? = some c → p c = false) : (a ++ b).dropWhile p = b := by
  induction a with
  | nil =>
    cases b with
    | nil => rfl
    | cons c b => rw [List.nil_append, List.dropWhile_cons_of_neg (by simp [hb c rfl])]
  | cons c a ih => rw [List.cons_append, List.dropWhile_cons_of_pos (ha c (by simp))]; exact ih (fun x hx => ha x (by simp [hx]))

theorem digit_not_space : ∀ c : UInt8, isDigit c = true → isSpace c = false ∧ c ≠ 0x2c := forall_byte (by decide +kernel)

theorem month_letters : ∀ n < 12, ∀ t, months[n]? = some t → t.length = 3 ∧ ∀ c ∈ t, isLower c = true := by
  intro n hn t h
  have : ∀ t ∈ months, t.length = 3 ∧ ∀ c ∈ t, isLower c = true := by decide
  exact this t (List.mem_of_getElem? h)

theorem lower_letter : ∀ c : UInt8, isLower (toLower c) = true → isDigit c = false ∧ isSpace c = false := forall_byte (by decide +kernel)

theorem months_names : months = monthNames := by decide

theorem digits_head {d : Text} {n : Nat} (h : DigitsOf d n) : ∃ c t, d = c :: t ∧ isDigit c = true := by
  obtain ⟨h1, h2, -⟩ := h
  obtain ⟨c, t, rfl⟩ := List.exists_cons_of_ne_nil h1
  exact ⟨c, t, rfl, h2 c (by simp)⟩

/-- Without the day of the week. -/
theorem dateStart_of {t wday ws0 r : Text} (e : t = wday ++ (ws0 ++ r)) (hw : wday = [] ∧ 0x2c ∉ t ∨ ∃ w, wday = w ++ bs "," ∧ 0x2c ∉ w) (h0 : ∀ c ∈ ws0, isSpace c = true)
    (hr : ∀ c, r.head? = some c → isSpace c = false) : dateStart t = r := by
  unfold dateStart
  rcases hw with ⟨rfl, hn⟩ | ⟨w, rfl, hw⟩
  · have : strchr 0x2c t = none := by
      cases h : strchr 0x2c t with
      | none => rfl
      | some pr => exact absurd (by rw [(strchr_some h).1]; simp) hn
    rw [this]
    simp only
    rw [e, List.nil_append]
    exact dropWhile_to h0 hr
  · have : strchr 0x2c t = some (w, ws0 ++ r) := by
      rw [e, show bs "," = [0x2c] from by decide]
      have := strchr_eq (r := ws0 ++ r) hw
      simpa using this
    rw [this]
    exact dropWhile_to h0 hr

theorem takeDigits {d r : Text} {n : Nat} (h : DigitsOf d n) (hr : ∀ c, r.head? = some c → isDigit c = false) : (d ++ r).takeWhile isDigit = d ∧ (d ++ r).dropWhile isDigit = r :=
  ⟨takeWhile_to h.2.1 hr, dropWhile_to h.2.1 hr⟩

theorem space_not_digit : ∀ c : UInt8, isSpace c = true → isDigit c = false := forall_byte (by decide +kernel)

/-- A text that begins with white space only, and then something. -/
theorem head_append_space {P : UInt8 → Bool} {ws r : Text} (hP : ∀ c, isSpace c = true → P c = false) (h : ∀ c ∈ ws, isSpace c = true) (hr : ws = [] → ∀ c, r.head? = some c → P c = false) :
    ∀ c, (ws ++ r).head? = some c → P c = false := by
  intro c hc
  cases ws with
  | nil => exact hr rfl c hc
  | cons w ws => simp at hc; subst hc; exact hP _ (h w (by simp))

theorem months_unique : ∀ i < 12, ∀ j < 12, months[i]? = months[j]? → i = j := by decide

theorem months_short {n : Nat} {t : Text} (h : months[n]? = some t) : n < 12 := (List.getElem?_eq_some_iff.1 h).1

theorem month_found {m r : Text} {n : Nat} (h : months[n]? = some (lower m)) : monthNames.findIdx? (fun k => hasPrefixCase k (m ++ r)) = some n := by
  have hn := months_short h
  have hl := (month_letters n hn _ h).1
  have hlm : m.length = 3 := by simpa [lower] using hl
  have key : ∀ k ∈ months, hasPrefixCase k (m ++ r) = true ↔ k = lower m := by
    intro k hk
    have h3 : k.length = 3 ∧ lower k = k := (by decide : ∀ k ∈ months, k.length = 3 ∧ lower k = k) k hk
    unfold hasPrefixCase
    rw [h3.1, ← hlm, List.take_left, h3.2]
    simp
  rw [← months_names]
  rw [List.findIdx?_eq_some_iff_getElem]
  refine ⟨(List.getElem?_eq_some_iff.1 h).1, ?_, ?_⟩
  · rw [key _ (List.getElem_mem _)]
    exact (List.getElem?_eq_some_iff.1 h).2
  · intro j hj hp
    rw [key _ (List.getElem_mem _)] at hp
    have : months[j]? = months[n]? := by rw [h, ← hp]; exact List.getElem?_eq_getElem _
    have := months_unique j (by omega) n hn this
    omega

theorem atoi_digits {d r : Text} {n : Nat} (h : DigitsOf d n) (hr : ∀ c, r.head? = some c → isDigit c = false) (hn : n < 2147483648) : atoiDigits (d ++ r) = .ok n := by
  unfold atoiDigits
  rw [(takeDigits h hr).1]
  have : decimal d = n := h.2.2.symm
  rw [this]
  simp only
  rw [if_pos hn]

theorem leading_digits {d r : Text} {n : Nat} (h : DigitsOf d n) : parseRfc822Date.leadingDigit (d ++ r) = true := by
  obtain ⟨c, t, rfl, hc⟩ := digits_head h
  exact hc

/-- **C53**: a date in the header is read as written: the day it names. -/
theorem C53_date (mktime : Nat → Nat → Nat → Int) {x : Text} {day month year : Nat} (h : DateText x day month year) : parseRfc822Date mktime x = .ok (mktime day month (sinceYear year)) := by
  obtain ⟨wday, ws0, d, ws1, m, ml, ws2, y, ws3, rest, e, hw, hs, hd, hd31, hm, hml, hne, hy, hyb, c, r, rfl, hc, hcd⟩ := h
  have hs0 : ∀ c ∈ ws0, isSpace c = true := fun c hc => hs c (by simp [hc])
  have hs1 : ∀ c ∈ ws1, isSpace c = true := fun c hc => hs c (by simp [hc])
  have hs2 : ∀ c ∈ ws2, isSpace c = true := fun c hc => hs c (by simp [hc])
  have hs3 : ∀ c ∈ ws3, isSpace c = true := fun c hc => hs c (by simp [hc])
  have hn := months_short hm
  have hlet : ∀ c ∈ m, isDigit c = false ∧ isSpace c = false := by
    intro c hc
    exact lower_letter c ((month_letters _ hn _ hm).2 _ (List.mem_map_of_mem hc))
  have hmne : m ≠ [] := by
    rintro rfl
    have := (month_letters _ hn _ hm).1
    simp [lower] at this
  have e0 : x = wday ++ (ws0 ++ (d ++ (ws1 ++ (m ++ ml ++ (ws2 ++ (y ++ (ws3 ++ c :: r))))))) := by rw [e]; simp
  have s0 : dateStart x = d ++ (ws1 ++ (m ++ ml ++ (ws2 ++ (y ++ (ws3 ++ c :: r))))) := by
    apply dateStart_of e0 hw hs0
    obtain ⟨c', t', rfl, h'⟩ := digits_head hd
    intro c'' h''
    simp at h''; subst h''
    exact (digit_not_space _ h').1
  have mh : ∀ tail : Text, ∀ c, (m ++ ml ++ tail).head? = some c → isDigit c = false ∧ isSpace c = false := by
    intro tail c hc
    obtain ⟨a, m', rfl⟩ := List.exists_cons_of_ne_nil hmne
    simp at hc; subst hc
    exact hlet _ (by simp)
  have g1 : ∀ c', (ws1 ++ (m ++ ml ++ (ws2 ++ (y ++ (ws3 ++ c :: r))))).head? = some c' → isDigit c' = false :=
    head_append_space (fun c hc => space_not_digit c hc) hs1 (fun _ c hc => (mh _ c hc).1)
  have g2 : (ws1 ++ (m ++ ml ++ (ws2 ++ (y ++ (ws3 ++ c :: r))))).dropWhile isSpace = m ++ ml ++ (ws2 ++ (y ++ (ws3 ++ c :: r))) := dropWhile_to hs1 (fun c hc => (mh _ c hc).2)
  have g3 : (m ++ ml ++ (ws2 ++ (y ++ (ws3 ++ c :: r)))).dropWhile (fun c => !isSpace c) = ws2 ++ (y ++ (ws3 ++ c :: r)) := by
    apply dropWhile_to
    · intro c hc
      rcases List.mem_append.1 hc with hc | hc
      · simp [(hlet c hc).2]
      · simp [hml c hc]
    · intro c hc
      obtain ⟨a, w, rfl⟩ := List.exists_cons_of_ne_nil hne
      simp at hc; subst hc
      simp [hs2 _ List.mem_cons_self]
  have g4 : (ws2 ++ (y ++ (ws3 ++ c :: r))).dropWhile isSpace = y ++ (ws3 ++ c :: r) := by
    apply dropWhile_to hs2
    obtain ⟨c', t', rfl, h'⟩ := digits_head hy
    intro c'' h''
    simp at h''; subst h''
    exact (digit_not_space _ h').1
  have g5 : ∀ c', (ws3 ++ c :: r).head? = some c' → isDigit c' = false := head_append_space (fun c hc => space_not_digit c hc) hs3 (fun e' c' hc' => by simp at hc'; subst hc'; exact hcd e')
  have g6 : (ws3 ++ c :: r).dropWhile isSpace = c :: r := dropWhile_to hs3 (fun c' hc' => by simp at hc'; subst hc'; exact hc)
  have g7 : monthNames.findIdx? (fun k => hasPrefixCase k (m ++ ml ++ (ws2 ++ (y ++ (ws3 ++ c :: r))))) = some month := by
    rw [List.append_assoc]; exact month_found hm
  unfold parseRfc822Date
  simp only [s0, leading_digits hd, not_true_eq_false, if_false, bind, Except.bind, atoi_digits hd g1 (by omega), if_neg (show ¬ 31 < day by omega), (takeDigits hd g1).2, g2, g7, g3, g4, leading_digits hy,
    atoi_digits hy g5 hyb, (takeDigits hy g5).2, g6, List.isEmpty_cons, Bool.false_eq_true]
  unfold dateYear sinceYear
  congr 2
  grind

/-- A form with a day of the week and the name of the month in full. -/
theorem date_example : DateText (bs " Mon, 7 MARCH 05 10:00 GMT") 7 2 5 := by
  refine ⟨bs " Mon,", bs " ", bs "7", bs " ", bs "MAR", bs "CH", bs " ", bs "05", bs " ", bs "10:00 GMT", by decide, .inr ⟨bs " Mon", by decide, by decide⟩, by decide, ⟨by decide, by decide, by decide⟩, by decide,
    by decide, by decide, by decide, ⟨by decide, by decide, by decide⟩, by decide, 0x31, bs "0:00 GMT", by decide, by decide, by decide⟩

example : parseRfc822Date (fun d m y => d + 100 * m + 10000 * y) (bs " Mon, 7 MARCH 05 10:00 GMT") = .ok 1050207 := C53_date _ date_example

theorem digits_of_take {s : Text} (h : parseRfc822Date.leadingDigit s = true) : DigitsOf (s.takeWhile isDigit) (decimal (s.takeWhile isDigit)) := by
  refine ⟨?_, fun c hc => ?_, rfl⟩
  · cases s with
    | nil => simp [parseRfc822Date.leadingDigit] at h
    | cons c s => rw [List.takeWhile_cons_of_pos (p := isDigit) h]; simp
  · have := List.all_takeWhile (p := isDigit) (l := s)
    exact List.all_eq_true.1 this c hc

theorem decimal_bound : ∀ (t : Text) (n : Nat), (∀ c ∈ t, isDigit c = true) → t.foldl (fun n c => 10 * n + (c.toNat - 48)) n < (n + 1) * 10 ^ t.length := by
  intro t
  induction t with
  | nil => intro n _; simp
  | cons c t ih =>
    intro n h
    rw [List.foldl_cons]
    have h1 := ih (10 * n + (c.toNat - 48)) (fun x hx => h x (by simp [hx]))
    have hc : c.toNat - 48 ≤ 9 := by
      have : ∀ c : UInt8, isDigit c = true → c.toNat - 48 ≤ 9 := forall_byte (by decide +kernel)
      exact this c (h c (by simp))
    refine Nat.lt_of_lt_of_le h1 ?_
    rw [List.length_cons, Nat.pow_succ', ← Nat.mul_assoc]
    exact Nat.mul_le_mul_right _ (by omega)

/-- A number without ten digits fits. -/
theorem atoi_short {s x : Text} (hx : ∀ ds, ds <:+: x → (∀ c ∈ ds, isDigit c = true) → ds.length < 10) (hs : s <:+: x) : atoiDigits s = .ok (decimal (s.takeWhile isDigit)) ∧ decimal (s.takeWhile isDigit) < 2147483648 := by
  have h1 : ∀ c ∈ s.takeWhile isDigit, isDigit c = true := fun c hc => List.all_eq_true.1 (List.all_takeWhile (p := isDigit) (l := s)) c hc
  have h2 := hx _ ((List.takeWhile_prefix _).isInfix.trans hs) h1
  have h3 := decimal_bound (s.takeWhile isDigit) 0 h1
  have h4 : decimal (s.takeWhile isDigit) < 2147483648 := by
    refine Nat.lt_of_lt_of_le h3 ?_
    rw [Nat.zero_add, Nat.one_mul]
    exact Nat.le_trans (Nat.pow_le_pow_right (by omega) (show (s.takeWhile isDigit).length ≤ 9 by omega)) (by decide)
  exact ⟨by unfold atoiDigits; simp only; rw [if_pos h4], h4⟩

theorem dateStart_split (x : Text) : ∃ wday ws0, x = wday ++ (ws0 ++ dateStart x) ∧ (wday = [] ∧ 0x2c ∉ x ∨ ∃ w, wday = w ++ bs "," ∧ 0x2c ∉ w) ∧ (∀ c ∈ ws0, isSpace c = true) := by
  unfold dateStart
  have hsp : ∀ t : Text, ∀ c ∈ t.takeWhile isSpace, isSpace c = true := fun t c hc => List.all_eq_true.1 (List.all_takeWhile (p := isSpace) (l := t)) c hc
  cases h : strchr 0x2c x with
  | none => exact ⟨[], x.takeWhile isSpace, by simp [List.takeWhile_append_dropWhile], .inl ⟨rfl, strchr_none h⟩, hsp x⟩
  | some pr =>
    obtain ⟨p, r⟩ := pr
    obtain ⟨h1, h2⟩ := strchr_some h
    exact ⟨p ++ bs ",", r.takeWhile isSpace, by simp [List.takeWhile_append_dropWhile, show bs "," = [0x2c] from by decide, h1], .inr ⟨p, rfl, h2⟩, hsp r⟩

/-- **C53**: a text without a date counts as -1. -/
theorem C53_undated (mktime : Nat → Nat → Nat → Int) {x : Text} (h : ¬ ∃ day month year, DateText x day month year) (hx : ∀ ds, ds <:+: x → (∀ c ∈ ds, isDigit c = true) → ds.length < 10) :
    parseRfc822Date mktime x = .ok (-1) := by
  obtain ⟨wday, ws0, e, hw, hs0⟩ := dateStart_split x
  unfold parseRfc822Date
  generalize dateStart x = s at e ⊢
  have i0 : s <:+: x := ⟨wday ++ ws0, [], by rw [e]; simp⟩
  by_cases l1 : parseRfc822Date.leadingDigit s = true
  case neg => rw [if_pos (by simpa using l1)]
  rw [if_neg (by simpa using l1)]
  simp only [bind, Except.bind, (atoi_short hx i0).1]
  by_cases l2 : 31 < decimal (s.takeWhile isDigit)
  · rw [if_pos l2]
  rw [if_neg l2]
  generalize e1 : (s.dropWhile isDigit).dropWhile isSpace = s1
  have hs1 : ∀ c ∈ (s.dropWhile isDigit).takeWhile isSpace, isSpace c = true := fun c hc => List.all_eq_true.1 List.all_takeWhile c hc
  have e1' : s = s.takeWhile isDigit ++ ((s.dropWhile isDigit).takeWhile isSpace ++ s1) := by rw [← e1, List.takeWhile_append_dropWhile, List.takeWhile_append_dropWhile]
  cases hm : monthNames.findIdx? (fun k => hasPrefixCase k s1) with
  | none => rfl
  | some mon =>
    simp only
    obtain ⟨hmlt, hmp, -⟩ := List.findIdx?_eq_some_iff_getElem.1 hm
    have hmon : months[mon]? = some (lower (s1.take 3)) := by
      have h3 : ∀ k ∈ months, k.length = 3 ∧ lower k = k := by decide
      have h4 : monthNames[mon] ∈ months := by rw [months_names]; exact List.getElem_mem _
      have h5 := h3 _ h4
      unfold hasPrefixCase at hmp
      rw [h5.1, h5.2] at hmp
      simp only [decide_eq_true_eq] at hmp
      rw [← hmp, months_names]
      exact List.getElem?_eq_getElem _
    have hlet : ∀ c ∈ s1.take 3, isDigit c = false ∧ isSpace c = false := by
      intro c hc
      exact lower_letter c ((month_letters _ hmlt _ hmon).2 _ (List.mem_map_of_mem hc))
    generalize e2 : (s1.dropWhile (fun c => !isSpace c)).dropWhile isSpace = s2
    have hs2 : ∀ c ∈ (s1.dropWhile (fun c => !isSpace c)).takeWhile isSpace, isSpace c = true := fun c hc => List.all_eq_true.1 List.all_takeWhile c hc
    by_cases l3 : parseRfc822Date.leadingDigit s2 = true
    case neg => rw [if_pos (by simpa using l3)]
    rw [if_neg (by simpa using l3)]
    have ek : s1.dropWhile (fun c => !isSpace c) = (s1.drop 3).dropWhile (fun c => !isSpace c) := by
      conv => lhs; rw [← List.take_append_drop 3 s1]
      rw [List.dropWhile_append_of_pos]
      intro c hc; simp [(hlet c hc).2]
    have e2' : s1 = s1.take 3 ++ ((s1.drop 3).takeWhile (fun c => !isSpace c) ++ ((s1.dropWhile (fun c => !isSpace c)).takeWhile isSpace ++ s2)) := by
      rw [← e2, List.takeWhile_append_dropWhile, ek, List.takeWhile_append_dropWhile, List.take_append_drop]
    have i2 : s2 <:+: x := by
      refine List.IsInfix.trans ?_ i0
      rw [e1', e2']
      exact ⟨s.takeWhile isDigit ++ ((s.dropWhile isDigit).takeWhile isSpace ++ (s1.take 3 ++ ((s1.drop 3).takeWhile (fun c => !isSpace c) ++ (s1.dropWhile (fun c => !isSpace c)).takeWhile isSpace))), [], by simp⟩
    simp only [(atoi_short hx i2).1]
    cases l4 : (s2.dropWhile isDigit).dropWhile isSpace with
    | nil => rfl
    | cons c r =>
      exfalso
      apply h
      refine ⟨_, mon, _, wday, ws0, s.takeWhile isDigit, (s.dropWhile isDigit).takeWhile isSpace, s1.take 3, (s1.drop 3).takeWhile (fun c => !isSpace c), (s1.dropWhile (fun c => !isSpace c)).takeWhile isSpace,
        s2.takeWhile isDigit, (s2.dropWhile isDigit).takeWhile isSpace, c :: r, ?_, hw, ?_, digits_of_take l1, by omega, hmon, ?_, ?_, digits_of_take l3, (atoi_short hx i2).2, c, r, rfl, ?_, ?_⟩
      · have e3' : s2 = s2.takeWhile isDigit ++ ((s2.dropWhile isDigit).takeWhile isSpace ++ c :: r) := by rw [← l4, List.takeWhile_append_dropWhile, List.takeWhile_append_dropWhile]
        have e4 : s1 = s1.take 3 ++ ((s1.drop 3).takeWhile (fun c => !isSpace c) ++ ((s1.dropWhile (fun c => !isSpace c)).takeWhile isSpace ++ (s2.takeWhile isDigit ++ ((s2.dropWhile isDigit).takeWhile isSpace ++ c :: r)))) := by
          rw [← e3']; exact e2'
        have e5 : s = s.takeWhile isDigit ++ ((s.dropWhile isDigit).takeWhile isSpace ++ (s1.take 3 ++ ((s1.drop 3).takeWhile (fun c => !isSpace c) ++ ((s1.dropWhile (fun c => !isSpace c)).takeWhile isSpace ++ (s2.takeWhile isDigit ++ ((s2.dropWhile isDigit).takeWhile isSpace ++ c :: r)))))) := by
          rw [← e4]; exact e1'
        rw [e]
        conv => lhs; rw [e5]
        simp only [List.append_assoc]
      · intro c hc
        simp only [List.mem_append] at hc
        rcases hc with ((hc | hc) | hc) | hc
        · exact hs0 c hc
        · exact hs1 c hc
        · exact hs2 c hc
        · exact List.all_eq_true.1 List.all_takeWhile c hc
      · intro c hc
        have := List.all_eq_true.1 (List.all_takeWhile (p := fun c => !isSpace c) (l := s1.drop 3)) c hc
        simpa using this
      · intro hnil
        rw [hnil, List.nil_append] at e2'
        have h2 : (s1.dropWhile (fun c => !isSpace c)) = s2 := by
          rw [← e2]
          have := List.takeWhile_append_dropWhile (p := isSpace) (l := s1.dropWhile (fun c => !isSpace c))
          rw [hnil, List.nil_append] at this
          exact this.symm
        cases s2 with
        | nil => simp [parseRfc822Date.leadingDigit] at l3
        | cons a s2 =>
          have := dropWhile_head (p := fun c => !isSpace c) (l := s1) (c := a) (by rw [h2]; rfl)
          simp [(digit_not_space a l3).1] at this
      · exact dropWhile_head (p := isSpace) (by rw [l4]; rfl)
      · intro hnil
        have h2 : s2.dropWhile isDigit = c :: r := by
          have := List.takeWhile_append_dropWhile (p := isSpace) (l := s2.dropWhile isDigit)
          rw [hnil, List.nil_append, l4] at this
          exact this.symm
        exact dropWhile_head (p := isDigit) (by rw [h2]; rfl)

/-- **C53**, together: the date a text means is the one that is read. -/
theorem C53_means {mktime : Nat → Nat → Nat → Int} {x : Text} {date : Int} (h : DateMeans mktime x date) : parseRfc822Date mktime x = .ok date := by
  rcases h with ⟨d, m, y, h, rfl⟩ | ⟨h1, h2, rfl⟩
  · exact C53_date mktime h
  · exact C53_undated mktime h1 h2

/-- **C53** is false for every text: a year that does not fit an `int` is undefined behaviour. -/
theorem C53_overflow_violation (mktime : Nat → Nat → Nat → Int) : parseRfc822Date mktime (bs "1 Jan 99999999999 00:00") = .error .overflow := rfl

end Mairix
