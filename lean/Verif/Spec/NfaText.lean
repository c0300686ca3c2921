import Verif.Model.NfaText

/-!
# What an input file of dfasyn says (dfasyn.5)

`DeclText` says how a declaration is written with tokens, `Layout` how tokens are written with characters. Both follow the manual page.
-/

namespace Mairix
namespace Spec

/-! ## Declarations as tokens -/

/-- Parts with a token between them. -/
def sepBy (sep : NTok) : List (List NTok) → List NTok
  | [] => []
  | [x] => x
  | x :: y :: l => x ++ sep :: sepBy sep (y :: l)

/-- Names with commas between them. -/
def nameList (l : List Text) : List NTok := sepBy .comma (l.map fun s => [.str s])

/-- A character, or a range as `a-z`. -/
def itemText : ClassItem → List NTok
  | .single c => [.chr c]
  | .range a b => [.chr a, .hyphen, .chr b]

/-- `[abe-h]`, `[^abc]` -/
def simpleText (s : SimpleClass) : List NTok := (if s.caret then .lsquareCaret else .lsquare) :: s.items.flatMap itemText ++ [.rsquare]

/-- `[abc]`, `~[abc]`, `[a-z]~[c]` -/
def classText : ClassExpr → List NTok
  | .simple s => simpleText s
  | .negated s => .not :: simpleText s
  | .minus s t => simpleText s ++ .not :: simpleText t

/-- One alternative of a stimulus: nothing, a name, a class, an inline block. -/
def stimText : PStim → List NTok
  | .eps => []
  | .word s => [.str s]
  | .cls c => classText c
  | .inline a b c => [.langle, .str a, .colon, .str b, .arrow, .str c, .rangle]

/-- A stimulus: alternatives with `|` between them. -/
def altsText (l : List PStim) : List NTok := sepBy .pipe (l.map stimText)

/-- A transition: stimuli with semicolons between them, and the states or the tags. -/
def transText (t : PTrans) : List NTok :=
  sepBy .semicolon (t.seq.map altsText) ++
    match t.goal with
    | .to l => .arrow :: nameList l
    | .tags l => .equal :: nameList l

/-- `entry name`, if there is one. -/
def entryText : Option Text → List NTok
  | some e => [.entry, .str e]
  | none => []

/-- `state name entry name transitions` -/
def stateText (s : PState) : List NTok :=
  .state :: .str s.name :: entryText s.entry ++ s.trans.flatMap transText

/-- How expressions are written, with the operators binding as in C: `?:` least, then `|`, `^`, `&`, and `~` most. -/
inductive ExprText : ELevel → TagExpr → List NTok → Prop where
  | tag (s : Text) : ExprText .unary (.tag s) [.str s]
  | not {e : TagExpr} {t : List NTok} : ExprText .unary e t → ExprText .unary (.not e) (.not :: t)
  | paren {e : TagExpr} {t : List NTok} : ExprText .cond e t → ExprText .unary e (.lparen :: t ++ [.rparen])
  | and1 {e : TagExpr} {t : List NTok} : ExprText .unary e t → ExprText .and e t
  | and {a b : TagExpr} {t u : List NTok} : ExprText .and a t → ExprText .unary b u → ExprText .and (.and a b) (t ++ .and :: u)
  | xor1 {e : TagExpr} {t : List NTok} : ExprText .and e t → ExprText .xor e t
  | xor {a b : TagExpr} {t u : List NTok} : ExprText .xor a t → ExprText .and b u → ExprText .xor (.xor a b) (t ++ .xor :: u)
  | or1 {e : TagExpr} {t : List NTok} : ExprText .xor e t → ExprText .or e t
  | or {a b : TagExpr} {t u : List NTok} : ExprText .or a t → ExprText .xor b u → ExprText .or (.or a b) (t ++ .pipe :: u)
  | cond1 {e : TagExpr} {t : List NTok} : ExprText .or e t → ExprText .cond e t
  | cond {c a b : TagExpr} {t u v : List NTok} : ExprText .or c t → ExprText .cond a u → ExprText .cond b v →
      ExprText .cond (.cond c a b) (t ++ .query :: u ++ .colon :: v)

/-- `attr names`, `attr name : expression`, both with `early`, `defattr name`, `type name` -/
inductive AttrText : PAttr → List NTok → Prop where
  | names (early : Bool) {l : List Text} : l ≠ [] → AttrText (.names early l) ((if early then [.early, .attr] else [.attr]) ++ nameList l)
  | expr (early : Bool) (s : Text) {e : TagExpr} {t : List NTok} : ExprText .cond e t →
      AttrText (.expr early s e) ((if early then [.early, .attr] else [.attr]) ++ .str s :: .colon :: t)
  | default (s : Text) : AttrText (.default s) [.defattr, .str s]
  | type (s : Text) : AttrText (.type s) [.type, .str s]

/-- Attributes one after the other. -/
inductive AttrsText : List PAttr → List NTok → Prop where
  | nil : AttrsText [] []
  | cons {a : PAttr} {l : List PAttr} {t u : List NTok} : AttrText a t → AttrsText l u → AttrsText (a :: l) (t ++ u)

/-- Whether there is a character in every class. -/
def ClassFull : ClassExpr → Prop
  | .simple s => s.items ≠ []
  | .negated s => s.items ≠ []
  | .minus s t => s.items ≠ [] ∧ t.items ≠ []

/-- There is a character in the class, if it is one. -/
def StimFull : PStim → Prop
  | .cls c => ClassFull c
  | _ => True

/-- At least one alternative. -/
def AltsFull (l : List PStim) : Prop := l ≠ [] ∧ ∀ s ∈ l, StimFull s

/-- Where a transition goes: at least one name. -/
def goalNames : PGoal → List Text
  | .to l => l
  | .tags l => l

/-- At least one stimulus, and one state or tag. -/
def TransFull (t : PTrans) : Prop := t.seq ≠ [] ∧ (∀ l ∈ t.seq, AltsFull l) ∧ goalNames t.goal ≠ []

/-- The declarations. -/
inductive DeclText : PDecl → List NTok → Prop where
  | abbreviation (s : Text) {l : List PStim} : AltsFull l → DeclText (.abbreviation s l) (.abbrev :: .str s :: .equal :: altsText l)
  | tokens {l : List Text} : l ≠ [] → DeclText (.tokens l) (.tokens :: l.map .str)
  | block (s : Text) (is : List (Text × Text)) {ss : List PState} : (∀ st ∈ ss, ∀ t ∈ st.trans, TransFull t) →
      DeclText (.block s is ss)
        (.block :: .str s :: .lbrace :: is.flatMap (fun i => [.str i.1, .colon, .str i.2]) ++ ss.flatMap stateText ++ [.rbrace])
  | attr {a : PAttr} {t : List NTok} : AttrText a t → DeclText (.attr a) t
  | group (s : Text) {l : List PAttr} {t : List NTok} : AttrsText l t → DeclText (.group s l) (.group :: .str s :: .lbrace :: t ++ [.rbrace])
  | tag (s : Text) {e : TagExpr} {t : List NTok} : ExprText .cond e t → DeclText (.tag s e) (.tag :: .str s :: .equal :: t)
  | prefix (s : Text) : DeclText (.prefix s) [.prefix, .str s]
  | entrystruct (a b : Text) : DeclText (.entrystruct a b) [.entrystruct, .str a, .str b]

/-- Declarations one after the other. -/
inductive FileText : List PDecl → List NTok → Prop where
  | nil : FileText [] []
  | cons {d : PDecl} {l : List PDecl} {t u : List NTok} : DeclText d t → FileText l u → FileText (d :: l) (t ++ u)

/-! ## Tokens as characters -/

/-- The reserved words in lower case. -/
def reservedWords : List (String × NTok) := [
  ("state", .state), ("abbrev", .abbrev), ("define", .define), ("tokens", .tokens), ("prefix", .prefix), ("block", .block), ("type", .type),
  ("entry", .entry), ("entrystruct", .entrystruct), ("attr", .attr), ("early", .early), ("defattr", .defattr), ("tag", .tag), ("group", .group)]

/-- A capital for a small letter. -/
def capital (c : UInt8) : UInt8 := if 0x61 ≤ c ∧ c ≤ 0x7a then c - 0x20 else c

/-- All small, all capitals, an initial capital. -/
def spellings (s : Text) : List Text := [s, s.map capital, (s.take 1).map capital ++ s.drop 1]

/-- A reserved word in one of its spellings; two have a capital inside as well. -/
def Reserved (w : Text) (k : NTok) : Prop :=
  (∃ e ∈ reservedWords, w ∈ spellings (bs e.1) ∧ k = e.2) ∨ (w = bs "EntryStruct" ∧ k = .entrystruct) ∨ (w = bs "DefAttr" ∧ k = .defattr)

/-- A letter, a digit, an underscore, a period. -/
def IdChar (c : UInt8) : Prop := (0x41 ≤ c ∧ c ≤ 0x5a) ∨ (0x61 ≤ c ∧ c ≤ 0x7a) ∨ (0x30 ≤ c ∧ c ≤ 0x39) ∨ c = 0x5f ∨ c = 0x2e

/-- The marks. -/
def marks : List (String × NTok) := [
  ("->", .arrow), ("=", .equal), ("|", .pipe), ("&", .and), ("~", .not), ("!", .not), ("^", .xor), ("?", .query), (":", .colon), (";", .semicolon),
  ("(", .lparen), (")", .rparen), ("{", .lbrace), ("}", .rbrace), ("<", .langle), (">", .rangle), (",", .comma)]

/-- A blank or a tab. -/
def BlankChar (c : UInt8) : Prop := c = 0x20 ∨ c = 0x09

/-- A digit of base 16 and its value, with capitals or without. -/
def Base16 (c : UInt8) (n : Nat) : Prop :=
  n < 16 ∧ ((n < 10 ∧ c.toNat = 0x30 + n) ∨ (10 ≤ n ∧ c.toNat = 0x61 + (n - 10)) ∨ (10 ≤ n ∧ c.toNat = 0x41 + (n - 10)))

/-- A digit of base 8 and its value. -/
def Base8 (c : UInt8) (n : Nat) : Prop := n < 8 ∧ c.toNat = 0x30 + n

/-- How a character is written inside the brackets. -/
inductive CharText : UInt8 → Text → Prop where
  | plain {c : UInt8} : c ≠ 0x2d → c ≠ 0x5d → c ≠ 0x5e → c ≠ 0x5c → c ≠ 0x0a → CharText c [c]
  | escaped {c : UInt8} : c = 0x2d ∨ c = 0x5d ∨ c = 0x5e ∨ c = 0x5c → CharText c [0x5c, c]
  | newline : CharText 0x0a (bs "\\n")
  | return : CharText 0x0d (bs "\\r")
  | formfeed : CharText 0x0c (bs "\\f")
  | tab : CharText 0x09 (bs "\\t")
  | control {c d : UInt8} : c.toNat ≤ 26 → d.toNat = 0x40 + c.toNat → CharText c [0x5e, d]
  | hex {c a b : UInt8} {x y : Nat} : Base16 a x → Base16 b y → c.toNat = 16 * x + y → CharText c [0x5c, 0x78, a, b]
  | octal {c a b d : UInt8} {x y z : Nat} : Base8 a x → Base8 b y → Base8 d z → c.toNat = 64 * x + 8 * y + z → CharText c [0x5c, a, b, d]

/-- What is inside the brackets. -/
inductive BodyText : List NTok → Text → Prop where
  | nil : BodyText [] []
  | chr {c : UInt8} {s t : Text} {ts : List NTok} : CharText c s → BodyText ts t → BodyText (.chr c :: ts) (s ++ t)
  | hyphen {t : Text} {ts : List NTok} : BodyText ts t → BodyText (.hyphen :: ts) (0x2d :: t)

/-- What comes before: the beginning of a line, a word, something else. -/
inductive Prior where
  | line | word | other
  deriving DecidableEq

/-- Whether a line of the text passed on would be read as its end: `%}` with blanks after it. -/
def EndMark (l : Text) : Prop := ∃ b : Text, l = bs "%}" ++ b ∧ ∀ c ∈ b, BlankChar c

/-- Lines with a newline after each. -/
def joinLines : List Text → Text
  | [] => []
  | l :: ls => l ++ 0x0a :: joinLines ls

/-- How tokens are laid out, and the text that is passed on. Blanks, newlines and comments may be anywhere; one of them, or a mark, is between two words. -/
inductive Layout : Prior → Text → List NTok → Text → Prop where
  | nil (b : Prior) : Layout b [] [] []
  | blank (b : Prior) {c : UInt8} {t : Text} {ts : List NTok} {o : Text} : BlankChar c → Layout .other t ts o → Layout b (c :: t) ts o
  | newline (b : Prior) {t : Text} {ts : List NTok} {o : Text} : Layout .line t ts o → Layout b (0x0a :: t) ts o
  | comment (b : Prior) {s t : Text} {ts : List NTok} {o : Text} : (0x0a : UInt8) ∉ s → Layout .line t ts o →
      Layout b (0x23 :: s ++ 0x0a :: t) ts o
  | name {b : Prior} {w t : Text} {ts : List NTok} {o : Text} : b ≠ .word → w ≠ [] → (∀ c ∈ w, IdChar c) → (∀ k, ¬ Reserved w k) →
      Layout .word t ts o → Layout b (w ++ t) (.str w :: ts) o
  | reserved {b : Prior} {w t : Text} {k : NTok} {ts : List NTok} {o : Text} : b ≠ .word → Reserved w k →
      Layout .word t ts o → Layout b (w ++ t) (k :: ts) o
  | mark (b : Prior) {e : String × NTok} {t : Text} {ts : List NTok} {o : Text} : e ∈ marks → Layout .other t ts o →
      Layout b (bs e.1 ++ t) (e.2 :: ts) o
  | quoted (b : Prior) {s t : Text} {ts : List NTok} {o : Text} : s ≠ [] → (0x22 : UInt8) ∉ s → Layout .other t ts o →
      Layout b (0x22 :: s ++ 0x22 :: t) (.str s :: ts) o
  | cls (b : Prior) {body t : Text} {cs ts : List NTok} {o : Text} : BodyText cs body → body.head? ≠ some 0x5e → Layout .other t ts o →
      Layout b (0x5b :: body ++ 0x5d :: t) (.lsquare :: cs ++ .rsquare :: ts) o
  | clsCaret (b : Prior) {body t : Text} {cs ts : List NTok} {o : Text} : BodyText cs body → Layout .other t ts o →
      Layout b (0x5b :: 0x5e :: body ++ 0x5d :: t) (.lsquareCaret :: cs ++ .rsquare :: ts) o
  | passed {b₁ b₂ : Text} {ls : List Text} {t : Text} {ts : List NTok} {o : Text} : (∀ c ∈ b₁, BlankChar c) → (∀ c ∈ b₂, BlankChar c) →
      (∀ l ∈ ls, (0x0a : UInt8) ∉ l ∧ ¬ EndMark l) → Layout .line t ts o →
      Layout .line (bs "%{" ++ b₁ ++ 0x0a :: joinLines ls ++ bs "%}" ++ b₂ ++ 0x0a :: t) ts (joinLines ls ++ o)

end Spec
end Mairix
