import Verif.Model.Basic

/-!
# Scanners generated by dfasyn

`dfasyn` makes a deterministic automaton from the description in a `.nfa` file; the automaton is in a state with a certain
attribute after reading a text iff the text belongs to a regular language that can be read off the description. The model
gives this language as a regular expression and decides membership by derivatives. That the generated
tables do the same is C69 and C70 (Props/Scanners).
-/

namespace Mairix

/-- Regular expressions over bytes. -/
inductive RE where
  | none
  | eps
  | cls (p : UInt8 → Bool)
  | seq (a b : RE)
  | alt (a b : RE)
  | star (a : RE)

namespace RE

/-- Whether the empty text belongs to the language. -/
def nullable : RE → Bool
  | none => false
  | eps => true
  | cls _ => false
  | seq a b => nullable a && nullable b
  | alt a b => nullable a || nullable b
  | star _ => true

/-- `seq`, leaving out what is trivial. -/
def seq' : RE → RE → RE
  | none, _ => none
  | eps, b => b
  | a, b => seq a b

/-- `alt`, leaving out what is trivial. -/
def alt' : RE → RE → RE
  | none, b => b
  | a, none => a
  | a, b => alt a b

/-- One step of the automaton: what may follow the byte `c`. -/
def step (c : UInt8) : RE → RE
  | none => none
  | eps => none
  | cls p => if p c then eps else none
  | seq a b => if nullable a then alt' (seq' (step c a) b) (step c b) else seq' (step c a) b
  | alt a b => alt' (step c a) (step c b)
  | star a => seq' (step c a) (star a)

/-- Whether the state after reading `s` is one that accepts. -/
def accepts (r : RE) : Text → Bool
  | [] => nullable r
  | c :: s => accepts (step c r) s

/-- Whether some state passed while reading `s`, after at least one byte, is one that accepts. -/
def passes (r : RE) : Text → Bool
  | [] => false
  | c :: s => nullable (step c r) || passes (step c r) s

/-- A certain byte. -/
def chr (c : UInt8) : RE := cls (· == c)
/-- `[ab...]` -/
def oneOf (s : String) : RE := cls fun c => (bs s).contains c
/-- Repetition at least once. -/
def plus (a : RE) : RE := seq a (star a)
/-- Zero or one times. -/
def opt (a : RE) : RE := alt eps a
/-- `a ; b ; ...` -/
def seqs : List RE → RE
  | [] => eps
  | [a] => a
  | a :: l => seq a (seqs l)
/-- Any of several. -/
def alts : List RE → RE
  | [] => none
  | [a] => a
  | a :: l => alt a (alts l)

end RE

/-! ## fromcheck.nfa -/

namespace From
open RE

/-- fromcheck.nfa:43 -/
def DIGIT : RE := cls isDigit
/-- fromcheck.nfa:47 -/
def LOWER : RE := cls isLower
/-- fromcheck.nfa:48 -/
def UPPER : RE := cls isUpper
/-- fromcheck.nfa:50 -/
def WHITE : RE := oneOf " \t"
/-- fromcheck.nfa:51 -/
def PLUSMINUS : RE := oneOf "+-"
/-- fromcheck.nfa:49 -/
def COLON : RE := oneOf ":"
/-- fromcheck.nfa:54-57 -/
def EMAIL : RE := cls fun c => isLower c || isUpper c || isDigit c || (bs "+-").contains c || (bs ".!#$%&'*/=?^_`{|}~").contains c
/-- fromcheck.nfa:58-59 -/
def DOMAIN : RE := cls fun c => isLower c || isUpper c || isDigit c || (bs "-_.").contains c
/-- fromcheck.nfa:60 -/
def DQUOTE : RE := chr 0x22
/-- fromcheck.nfa:61 and the alternatives in state `quoted_before_at` (fromcheck.nfa:83). -/
def QUOTED : RE := alts [EMAIL, WHITE, oneOf "@:<>"]

/-- Block `email` (fromcheck.nfa:71-105): in state `in` any number of address characters or routes, then a first
piece, in `before_at` more of them, and possibly a domain of at least two characters or a number in brackets. -/
def email : RE := seqs [
  star (alt EMAIL (seqs [oneOf "@", star DOMAIN, COLON])),
  alt EMAIL (seqs [DQUOTE, star QUOTED, DQUOTE]),
  star (alt EMAIL (seqs [DQUOTE, star QUOTED, DQUOTE])),
  opt (seq (oneOf "@") (alt
    (seqs [oneOf "[", star (alt DIGIT (oneOf ".")), oneOf "]"])
    (seq DOMAIN (plus DOMAIN))))]

/-- Block `angled_email` (fromcheck.nfa:107-116). -/
def angledEmail : RE := seqs [oneOf "<", email, oneOf ">"]

/-- Block `zone` (fromcheck.nfa:118-128). -/
def zone : RE := alt UPPER (seq (alt UPPER PLUSMINUS) (plus (alts [UPPER, LOWER, DIGIT])))

/-- A time, `HH:MM:SS` or `HH:MM`, and a blank (fromcheck.nfa:153-156, 223-226). -/
def time : RE := alt
  (seqs [DIGIT, DIGIT, COLON, DIGIT, DIGIT, COLON, DIGIT, DIGIT, WHITE])
  (seqs [DIGIT, DIGIT, COLON, DIGIT, DIGIT, WHITE])

/-- A day and a blank (fromcheck.nfa:147-148, 211-212). -/
def day : RE := alt (seq DIGIT WHITE) (seqs [DIGIT, DIGIT, WHITE])

/-- A name of three letters, as of a month. -/
def name3 : RE := seqs [UPPER, LOWER, LOWER]

/-- A year of four digits. -/
def year4 : RE := seqs [DIGIT, DIGIT, DIGIT, DIGIT]

/-- Block `date` (fromcheck.nfa:133-191). -/
def date : RE := seqs [
  plus WHITE, name3, WHITE,
  star WHITE, name3, WHITE,
  star WHITE, day,
  star WHITE, time,
  star WHITE,
  alt
    (seqs [alts [eps, seq zone WHITE, seqs [zone, WHITE, star WHITE, zone, WHITE]], star WHITE, year4, star WHITE])
    (seqs [year4, star WHITE, alt zone (seqs [zone, WHITE, star WHITE, zone]), star WHITE])]

/-- Block `date_old` (fromcheck.nfa:195-242). -/
def dateOld : RE := seqs [
  plus WHITE, name3, oneOf ",", WHITE,
  star WHITE, day,
  star WHITE, name3, WHITE,
  alt year4 (seq DIGIT DIGIT),
  star WHITE, time,
  star WHITE, alts [eps, zone, seqs [zone, WHITE, star WHITE, zone]], star WHITE]

/-- Block `remote` (fromcheck.nfa:244-254). -/
def remote : RE := seqs [plus WHITE, oneOf "r", oneOf "e", oneOf "m", oneOf "o", oneOf "t", oneOf "e", WHITE,
  oneOf "f", oneOf "r", oneOf "o", oneOf "m", WHITE, star DOMAIN]

/-- Block `main` (fromcheck.nfa:259-290): the texts after which the attribute is `FROMCHECK_PASS`. -/
def line : RE := seqs [
  star WHITE,
  alts [email, angledEmail, PLUSMINUS, eps],
  alts [
    seq (alt date dateOld) (alt eps (seq remote (chr 0x0a))),
    seqs [date, chr 0x0d, chr 0x0a]]]

end From

/-- What `looks_like_from_separator` (mbox.c:209-241) decides about the text after `From `: it reads on until there is no
way to go on (then the derivative is empty and stays so) or until it is in a state with `FROMCHECK_PASS`. -/
def fromCheck (s : Text) : Bool := From.line.passes s

end Mairix
