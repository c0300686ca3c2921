import Verif.Spec.FromLine
import Verif.Proofs.Output

/-!
# C50: From lines
-/

namespace Mairix
open Spec
open RE

theorem star_all {p : UInt8 → Bool} {a : RE} (ha : ∀ c, p c = true → Denotes a [c]) : ∀ {l : Text}, (∀ c ∈ l, p c = true) → Denotes (.star a) l
  | [], _ => .nil
  | c :: l, h => by
    have := Denotes.more (ha c (h c (by simp))) (star_all ha (l := l) fun d hd => h d (by simp [hd]))
    exact this

theorem digit_denotes {c : UInt8} (h : isDigit c = true) : Denotes From.DIGIT [c] := .cls h

theorem digits_two {n : Nat} (h1 : 10 ≤ n) (h2 : n < 100) : ∃ a b, digits n = [a, b] ∧ isDigit a = true ∧ isDigit b = true := by
  have hl : (digits n).length ≤ 2 := (digits_length_le (by decide)).2 (by omega)
  have hl' : ¬ (digits n).length ≤ 1 := fun h => by have := (digits_length_le (by decide)).1 h; omega
  match hd : digits n with
  | [] => rw [hd] at hl'; simp at hl'
  | [a] => rw [hd] at hl'; simp at hl'
  | [a, b] => exact ⟨a, b, rfl, isDigit_digits (n := n) (by rw [hd]; simp), isDigit_digits (n := n) (by rw [hd]; simp)⟩
  | a :: b :: c :: l => rw [hd] at hl; simp at hl

theorem digits_one {n : Nat} (h : n < 10) : ∃ a, digits n = [a] ∧ isDigit a = true := by
  refine ⟨_, digits_lt h, isDigit_digits (n := n) ?_⟩
  rw [digits_lt h]; simp

theorem digits_four {n : Nat} (h1 : 1000 ≤ n) (h2 : n < 10000) : Denotes From.year4 (digits n) := by
  have hl : (digits n).length ≤ 4 := (digits_length_le (by decide)).2 (by omega)
  have hl' : ¬ (digits n).length ≤ 3 := fun h => by have := (digits_length_le (by decide)).1 h; omega
  have hm : ∀ c ∈ digits n, isDigit c = true := fun c hc => isDigit_digits hc
  match hd : digits n with
  | [] => rw [hd] at hl'; simp at hl'
  | [_] => rw [hd] at hl'; simp at hl'
  | [_, _] => rw [hd] at hl'; simp at hl'
  | [_, _, _] => rw [hd] at hl'; simp at hl'
  | [a, b, c, d] =>
    rw [hd] at hm
    exact .seq (s := [a]) (digit_denotes (hm a (by simp))) (.seq (s := [b]) (digit_denotes (hm b (by simp)))
      (.seq (s := [c]) (digit_denotes (hm c (by simp))) (digit_denotes (hm d (by simp)))))
  | _ :: _ :: _ :: _ :: _ :: _ => rw [hd] at hl; simp at hl

theorem padded_zero {n : Nat} (h : n < 100) : ∃ a b, padded 0x30 n = [a, b] ∧ isDigit a = true ∧ isDigit b = true := by
  unfold padded
  split
  · next h =>
    obtain ⟨a, e, ha⟩ := digits_one h
    exact ⟨0x30, a, by rw [e], by decide, ha⟩
  · next h' => exact digits_two (by omega) h

theorem usual_email {a : Text} (h : UsualAddress a) : Denotes From.email a := by
  obtain ⟨l, hl, hc, h⟩ := h
  obtain ⟨c, l, rfl⟩ : ∃ c l', l = c :: l' := by
    cases l with
    | nil => exact absurd rfl hl
    | cons c l => exact ⟨c, l, rfl⟩
  have hE : ∀ c, localChar c = true → Denotes From.EMAIL [c] := by
    intro c hc
    refine .cls ?_
    revert hc
    revert c; exact forall_byte (by decide +kernel)
  have hD : ∀ c, domainChar c = true → Denotes From.DOMAIN [c] := by
    intro c hc
    refine .cls ?_
    revert hc
    revert c; exact forall_byte (by decide +kernel)
  have hpre : ∀ t, Denotes (opt (seq (oneOf "@") (alt
    (seqs [oneOf "[", star (alt From.DIGIT (oneOf ".")), oneOf "]"])
    (seq From.DOMAIN (plus From.DOMAIN))))) t → Denotes From.email ((c :: l) ++ t) := by
    intro t ht
    exact .seq (s := []) .nil (.seq (s := [c]) (.altl (hE c (hc c (by simp))))
      (.seq (s := l) (star_all (p := localChar) (fun d hd => .altl (hE d hd)) (fun d hd => hc d (by simp [hd]))) ht))
  rcases h with rfl | ⟨d, hd, hdc, rfl⟩
  · have := hpre [] (.altl .eps)
    rwa [List.append_nil] at this
  · rw [List.append_assoc]
    apply hpre
    match d, hd with
    | x :: y :: d, _ =>
      refine .altr (.seq (s := bs "@") (.cls (by decide)) (.altr (.seq (s := [x]) (hD x (hdc x (by simp))) (.seq (s := [y]) (hD y (hdc y (by simp))) ?_))))
      exact star_all (p := domainChar) hD fun c hc => hdc c (by simp [hc])

/-- **C50.** A line that consists of `From `, an address and a date as made by `asctime` is recognised as the beginning of a message, whatever follows. -/
theorem C50_usual {a weekday month : Text} {day hour min sec year : Nat} (ha : UsualAddress a) (hw : ThreeLetters weekday) (hm : ThreeLetters month)
    (hd : day < 100) (hh : hour < 100) (hmi : min < 100) (hs : sec < 100) (hy : 1000 ≤ year ∧ year < 10000) (rest : Text) :
    fromCheck (a ++ bs " " ++ asctime weekday month day hour min sec year ++ rest) = true := by
  rw [From.fromCheck_core]
  refine ⟨a ++ bs " " ++ asctime weekday month day hour min sec year, rest, rfl, ?_, ?_⟩
  · intro h
    have := (List.append_eq_nil_iff.1 (List.append_eq_nil_iff.1 h).1).2
    revert this; decide
  have hsp : Denotes From.WHITE (bs " ") := .cls (by decide)
  have hco : Denotes From.COLON (bs ":") := .cls (by decide)
  have name : ∀ {t}, ThreeLetters t → Denotes From.name3 t := by
    rintro t ⟨x, y, z, rfl, h1, h2, h3⟩
    exact .seq (s := [x]) (.cls h1) (.seq (s := [y]) (.cls h2) (.cls h3))
  obtain ⟨h1, h2, eh, hh1, hh2⟩ := padded_zero hh
  obtain ⟨m1, m2, em, hm1, hm2⟩ := padded_zero hmi
  obtain ⟨s1, s2, es, hs1, hs2⟩ := padded_zero hs
  have htime : Denotes From.time (padded 0x30 hour ++ bs ":" ++ padded 0x30 min ++ bs ":" ++ padded 0x30 sec ++ bs " ") := by
    rw [eh, em, es]
    exact .altl (.seq (s := [h1]) (digit_denotes hh1) (.seq (s := [h2]) (digit_denotes hh2) (.seq (s := bs ":") hco (.seq (s := [m1]) (digit_denotes hm1)
      (.seq (s := [m2]) (digit_denotes hm2) (.seq (s := bs ":") hco (.seq (s := [s1]) (digit_denotes hs1) (.seq (s := [s2]) (digit_denotes hs2) hsp))))))))
  -- the blank that pads a day is read as one more blank before it
  have hday : ∃ x y, padded 0x20 day ++ bs " " = x ++ y ∧ Denotes (star From.WHITE) x ∧ Denotes From.day y := by
    unfold padded
    split
    · next h =>
      obtain ⟨b, e, hb⟩ := digits_one h
      refine ⟨bs " ", b :: bs " ", by rw [e]; rfl, ?_, ?_⟩
      · have := Denotes.more hsp (.nil (a := From.WHITE)); rwa [List.append_nil] at this
      · exact .altl (.seq (s := [b]) (digit_denotes hb) hsp)
    · next h =>
      obtain ⟨b, c, e, hb, hc⟩ := digits_two (by omega) hd
      exact ⟨[], b :: c :: bs " ", by rw [e]; rfl, .nil, .altr (.seq (s := [b]) (digit_denotes hb) (.seq (s := [c]) (digit_denotes hc) hsp))⟩
  obtain ⟨x, y, exy, hx, hy'⟩ := hday
  have hyear := digits_four hy.1 hy.2
  have e : a ++ bs " " ++ asctime weekday month day hour min sec year = [] ++ (a ++ ((bs " " ++ []) ++ (weekday ++ (bs " " ++ ([] ++ (month ++ (bs " " ++ (x ++ (y ++ ([] ++
      ((padded 0x30 hour ++ bs ":" ++ padded 0x30 min ++ bs ":" ++ padded 0x30 sec ++ bs " ") ++ ([] ++ ([] ++ ([] ++ (digits year ++ []))))))))))))))) := by
    have : asctime weekday month day hour min sec year = weekday ++ bs " " ++ month ++ bs " " ++ (padded 0x20 day ++ bs " ") ++
        (padded 0x30 hour ++ bs ":" ++ padded 0x30 min ++ bs ":" ++ padded 0x30 sec ++ bs " ") ++ digits year := by
      simp only [asctime, List.append_assoc]
    rw [this, exy]
    simp only [List.append_assoc, List.nil_append, List.append_nil]
  rw [e]
  exact .seq .nil (.seq (.altl (usual_email ha)) (.altl (.seq (.seq hsp .nil) (.seq (name hw) (.seq hsp (.seq .nil (.seq (name hm) (.seq hsp (.seq hx (.seq hy'
    (.seq .nil (.seq htime (.seq .nil (.altl (.seq (.altl .eps) (.seq .nil (.seq hyear .nil)))))))))))))))))

/-- A date in this form. -/
example : asctime (bs "Mon") (bs "Jan") 1 12 34 56 1970 = bs "Mon Jan  1 12:34:56 1970" := by decide +kernel

/-- An address in this form. -/
example : UsualAddress (bs "jo.doe+x@mail.example.org") :=
  ⟨bs "jo.doe+x", by decide, by decide, .inr ⟨bs "mail.example.org", by decide, by decide, by decide⟩⟩

/-- **A gap:** an address with a domain of one character is not recognised. -/
theorem C50_short_domain_violation : fromCheck (bs "root@x Mon Jan  1 12:34:56 1970\n") = false := by decide +kernel

/-- Lines of a message that only begin with `From ` are not recognised. -/
example : fromCheck (bs "here on we know\n") = false ∧ fromCheck (bs "\n") = false ∧ fromCheck (bs "me@home Monday\nMon Jan  1 12:34:56 1970") = false := by
  decide +kernel

/-- **C50, one line.** Whether a line is recognised depends on this line only: not on what comes after it. -/
theorem C50_one_line (line rest : Text) : fromCheck (line ++ 0x0a :: rest) = fromCheck line := by
  cases h : fromCheck line with
  | true => exact From.fromCheck_append _ h
  | false =>
    cases h' : fromCheck (line ++ 0x0a :: rest) with
    | false => rfl
    | true => rw [From.fromCheck_line h'] at h; cases h

end Mairix
