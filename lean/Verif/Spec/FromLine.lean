import Verif.Model.Output

/-!
# From lines as mail programs write them (specification)
-/

namespace Mairix.Spec

/-- Letters, digits and the other characters an address may have before the `@`. -/
def localChar (c : UInt8) : Bool := isAlnum c || (bs "+-.!#$%&'*/=?^_`{|}~").contains c

/-- Letters, digits, dots, hyphens and underscores. -/
def domainChar (c : UInt8) : Bool := isAlnum c || (bs "-_.").contains c

/-- `local` or `local@domain`, where the domain has at least two characters. -/
def UsualAddress (a : Text) : Prop :=
  ∃ l, l ≠ [] ∧ (∀ c ∈ l, localChar c = true) ∧
    (a = l ∨ ∃ d, 2 ≤ d.length ∧ (∀ c ∈ d, domainChar c = true) ∧ a = l ++ bs "@" ++ d)

/-- A capital and two small letters, as `Mon` or `Jan`. -/
def ThreeLetters (t : Text) : Prop := ∃ a b c, t = [a, b, c] ∧ isUpper a = true ∧ isLower b = true ∧ isLower c = true

/-- A number below 100 with two characters, the first of them a given one if the number is below 10. -/
def padded (c : UInt8) (n : Nat) : Text := if n < 10 then c :: digits n else digits n

/-- A date as made by the C function `asctime`, without the newline: `Mon Jan  1 12:34:56 1970`. -/
def asctime (weekday month : Text) (day hour min sec year : Nat) : Text :=
  weekday ++ bs " " ++ month ++ bs " " ++ padded 0x20 day ++ bs " " ++ padded 0x30 hour ++ bs ":" ++ padded 0x30 min ++ bs ":" ++
    padded 0x30 sec ++ bs " " ++ digits year

end Mairix.Spec
