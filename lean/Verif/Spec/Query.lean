import Verif.Spec.Edit

/-!
# Queries (specification), after the manual page mairix.1, "Search patterns" to "Precedence matters"
-/

namespace Mairix.Spec

/-- The parts of a message a word can be searched in. -/
inductive Field
  | to | cc | sender | subject | body | attachment | path
  deriving DecidableEq, Repr

/-- The flags a search can ask for. -/
inductive Flag
  | seen | replied | flagged
  deriving DecidableEq, Repr

/-- What there is to know about a message when searching: the words of its text fields and its
message identifiers (in lower case), its path (`none` for a message that is gone), its date and size
and its flags. -/
structure Info where
  words : Field → List Text
  path : Option Text
  ids : List Text
  date : Nat
  size : Nat
  has : Flag → Bool

/-- A single condition: `~` (negation), `^` (anchor), the word, and for `word=k` the number `k`. -/
structure Term where
  negated : Bool
  anchored : Bool
  word : Text
  errors : Option Nat

/-- `v` contains `p` with at most `k` errors, at its beginning if `anchored`. -/
def Contains (anchored : Bool) (k : Nat) (p v : Text) : Prop :=
  v ≠ [] ∧ ∃ part, (if anchored then part <+: v else part <:+: v) ∧ WithinEdits k part p

/-- The (un-negated) condition holds in one field. Words are compared in lower case; a path is
always searched for a part, and as it stands. -/
def Term.HoldsIn (t : Term) (m : Info) : Field → Prop
  | .path => ∃ p, m.path = some p ∧ Contains t.anchored (t.errors.getD 0) t.word p
  | f => ∃ v ∈ m.words f,
    match t.errors with
    | none => v = lower t.word
    | some k => Contains t.anchored k (lower t.word) v

/-- The condition holds for a message, looking at the given fields. -/
def Term.Holds (t : Term) (fields : List Field) (m : Info) : Prop :=
  if t.negated then ¬ ∃ f ∈ fields, t.HoldsIn m f else ∃ f ∈ fields, t.HoldsIn m f

/-- An expression: alternatives (`/`) of conditions that must all hold (`,`). -/
abbrev Expr := List (List Term)

/-- Some alternative has all its conditions satisfied. -/
def Expr.Holds (e : Expr) (fields : List Field) (m : Info) : Prop :=
  ∃ alt ∈ e, ∀ t ∈ alt, t.Holds fields m

/-! ## How queries are written -/

/-- Decimal numerals; the empty one counts as 0. -/
inductive Numeral : Text → Nat → Prop
  | nil : Numeral [] 0
  | snoc {d n} (c : UInt8) : Numeral d n → 0x30 ≤ c → c ≤ 0x39 → Numeral (d ++ [c]) (10 * n + (c.toNat - 0x30))

/-- How a condition is written: `~^word=k`. -/
inductive Term.WrittenAs : Term → Text → Prop
  | exact (n a w) : WrittenAs ⟨n, a, w, none⟩ ((if n then bs "~" else []) ++ (if a then bs "^" else []) ++ w)
  | approx (n a w k d) : Numeral d k →
      WrittenAs ⟨n, a, w, some k⟩ ((if n then bs "~" else []) ++ (if a then bs "^" else []) ++ w ++ bs "=" ++ d)

/-- Words that can be written in a query. -/
def Term.Plain (t : Term) : Prop :=
  t.word ≠ [] ∧ (∀ c ∈ t.word, isSpace c = false ∧ c ∉ bs "/,=") ∧ (∀ c, t.word.head? = some c → c ∉ bs "~^")

/-- `s` is `r` with white space put in. -/
def Spaced (s r : Text) : Prop := s.filter (fun c => !isSpace c) = r

/-- How an expression is written. White space may be put anywhere before the last condition. -/
inductive Expr.WrittenAs : Expr → Text → Prop
  | last {t s} : t.WrittenAs s → WrittenAs [[t]] s
  | and {t r s alt e rest} : t.WrittenAs r → Spaced s r → WrittenAs (alt :: e) rest →
      WrittenAs ((t :: alt) :: e) (s ++ bs "," ++ rest)
  | or {t r s e rest} : t.WrittenAs r → Spaced s r → WrittenAs e rest →
      WrittenAs ([t] :: e) (s ++ bs "/" ++ rest)

/-- The meaning of the letters before the colon. -/
inductive LetterMeans : UInt8 → Field → Prop
  | t : LetterMeans 0x74 .to
  | c : LetterMeans 0x63 .cc
  | f : LetterMeans 0x66 .sender
  | s : LetterMeans 0x73 .subject
  | b : LetterMeans 0x62 .body
  | n : LetterMeans 0x6e .attachment
  | p : LetterMeans 0x70 .path
  | rt : LetterMeans 0x72 .to
  | rc : LetterMeans 0x72 .cc
  | at : LetterMeans 0x61 .to
  | ac : LetterMeans 0x61 .cc
  | af : LetterMeans 0x61 .sender

/-- How a word search argument is written: `letters:expression`, or without letters, which means all
of to, cc, from, subject and body. -/
inductive ArgWrittenAs : List Field → Expr → Text → Prop
  | letters {letters fields e s} : (∀ c ∈ letters, c ∈ bs "tcfsbnpra") →
      (∀ f, f ∈ fields ↔ ∃ c ∈ letters, LetterMeans c f) → e.WrittenAs s →
      ArgWrittenAs fields e (letters ++ bs ":" ++ s)
  | plain {e s} : e.WrittenAs s → (∀ c ∈ s, c ∉ bs ":") →
      ArgWrittenAs [.to, .cc, .sender, .subject, .body] e s

/-! ## The other kinds of arguments -/

/-- `x` lies strictly between the limits that are given, in whichever order they are given. -/
def StrictlyWithin : Option Int → Option Int → Int → Prop
  | some a, some b, x => min a b < x ∧ x < max a b
  | some a, none, x => a < x
  | none, some b, x => x < b
  | none, none, _ => True

/-- An argument of a search. -/
inductive Cond
  | words (fields : List Field) (e : Expr)
  | msgid (id : Text)
  | dates (a b : Option Int)
  | sizes (a b : Option Nat)
  | flags (l : List (Bool × Flag))

/-- What an argument asks of a message. For flags: each flag given must be there or, where negated
(`false`), must not be there. -/
def Cond.Holds : Cond → Info → Prop
  | .words fields e, m => e.Holds fields m
  | .msgid id, m => lower id ∈ m.ids
  | .dates a b, m => StrictlyWithin a b m.date
  | .sizes a b, m => StrictlyWithin (a.map Int.ofNat) (b.map Int.ofNat) m.size
  | .flags l, m => ∀ p ∈ l, m.has p.2 = p.1

/-- `k` means times 1024 and `M` times 1024*1024, in either case. -/
inductive SizeWritten : Text → Nat → Prop
  | plain {d n} : d ≠ [] → Numeral d n → SizeWritten d n
  | kilo {d n c} : d ≠ [] → Numeral d n → c ∈ bs "kK" → SizeWritten (d ++ [c]) (n * 1024)
  | mega {d n c} : d ≠ [] → Numeral d n → c ∈ bs "mM" → SizeWritten (d ++ [c]) (n * (1024 * 1024))

/-- `low-high`, `low-`, `-high`, `-`. -/
inductive SizeRangeWritten : Text → Option Nat → Option Nat → Prop
  | both {s t a b} : SizeWritten s a → SizeWritten t b → SizeRangeWritten (s ++ bs "-" ++ t) (some a) (some b)
  | low {s a} : SizeWritten s a → SizeRangeWritten (s ++ bs "-") (some a) none
  | high {t b} : SizeWritten t b → SizeRangeWritten (bs "-" ++ t) none (some b)
  | none : SizeRangeWritten (bs "-") none none

/-- The letters of the flags, in either case. -/
inductive FlagLetter : UInt8 → Flag → Prop
  | seen {c} : c ∈ bs "sS" → FlagLetter c .seen
  | replied {c} : c ∈ bs "rR" → FlagLetter c .replied
  | flagged {c} : c ∈ bs "fF" → FlagLetter c .flagged

/-- Any mix of flag letters and flag letters with a `-` before them. -/
inductive FlagsWritten : List (Bool × Flag) → Text → Prop
  | nil : FlagsWritten [] []
  | pos {c f l s} : FlagLetter c f → FlagsWritten l s → FlagsWritten ((true, f) :: l) (c :: s)
  | neg {c f l s} : FlagLetter c f → FlagsWritten l s → FlagsWritten ((false, f) :: l) (0x2d :: c :: s)

/-- How an argument is written. What date expressions mean is a parameter here. -/
inductive Cond.WrittenAs (dateRange : Text → Option Int → Option Int → Prop) : Cond → Text → Prop
  | words {fields e s} : ArgWrittenAs fields e s → WrittenAs dateRange (.words fields e) s
  | msgid (id) : WrittenAs dateRange (.msgid id) (bs "m:" ++ id)
  | dates {s a b} : dateRange s a b → WrittenAs dateRange (.dates a b) (bs "d:" ++ s)
  | sizes {s a b} : SizeRangeWritten s a b → WrittenAs dateRange (.sizes a b) (bs "z:" ++ s)
  | flags {l s} : FlagsWritten l s → WrittenAs dateRange (.flags l) (bs "F:" ++ s)

/-- The arguments of a search, in the order they are written. -/
inductive QueryWrittenAs (dateRange : Text → Option Int → Option Int → Prop) : List Cond → List Text → Prop
  | nil : QueryWrittenAs dateRange [] []
  | cons {c s cs ss} : c.WrittenAs dateRange s → QueryWrittenAs dateRange cs ss →
      QueryWrittenAs dateRange (c :: cs) (s :: ss)

end Mairix.Spec
