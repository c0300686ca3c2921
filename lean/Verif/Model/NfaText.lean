import Verif.Model.Nfa

/-!
# Reading the input files of dfasyn: dfasyn/scan.l, dfasyn/parse.y

The scanner is the one that flex makes of scan.l: at each place the rule with the longest match is taken, of several the first. The parser is the one that bison
makes of parse.y. Simplification: it is written by recursive descent; one token ahead tells which rule applies, and the operators bind as declared
(parse.y:76-82). The actions are in Model/Nfa.lean: here they only build the list of declarations.
-/

namespace Mairix

/-! ## The scanner -/

/-- The tokens (parse.y:51-74). -/
inductive NTok where
  | str (s : Text) | chr (c : UInt8)
  | state | abbrev | define | tokens | «prefix» | block | type | entry | entrystruct | attr | early | defattr | tag | group
  | arrow | equal | pipe | and | not | xor | query | colon | semicolon | lparen | rparen | lbrace | rbrace | langle | rangle
  | lsquare | lsquareCaret | rsquare | comma | hyphen
  deriving DecidableEq, Repr

/-- The start conditions (scan.l:35-37). -/
inductive LexMode where
  | initial | passthru | str | charclass
  deriving DecidableEq, Repr

/-- The keywords (scan.l:41-58). -/
def nfaKeywords : List (Text × NTok) := [
  (bs "STATE", .state), (bs "State", .state), (bs "state", .state),
  (bs "ABBREV", .abbrev), (bs "Abbrev", .abbrev), (bs "abbrev", .abbrev),
  (bs "DEFINE", .define), (bs "Define", .define), (bs "define", .define),
  (bs "TOKENS", .tokens), (bs "Tokens", .tokens), (bs "tokens", .tokens),
  (bs "PREFIX", .prefix), (bs "Prefix", .prefix), (bs "prefix", .prefix),
  (bs "BLOCK", .block), (bs "Block", .block), (bs "block", .block),
  (bs "TYPE", .type), (bs "Type", .type), (bs "type", .type),
  (bs "ENTRY", .entry), (bs "Entry", .entry), (bs "entry", .entry),
  (bs "ENTRYSTRUCT", .entrystruct), (bs "EntryStruct", .entrystruct), (bs "Entrystruct", .entrystruct), (bs "entrystruct", .entrystruct),
  (bs "ATTR", .attr), (bs "Attr", .attr), (bs "attr", .attr),
  (bs "EARLY", .early), (bs "Early", .early), (bs "early", .early),
  (bs "DEFATTR", .defattr), (bs "DefAttr", .defattr), (bs "Defattr", .defattr), (bs "defattr", .defattr),
  (bs "TAG", .tag), (bs "Tag", .tag), (bs "tag", .tag),
  (bs "GROUP", .group), (bs "Group", .group), (bs "group", .group)]

/-- `[A-Za-z0-9_.]` (scan.l:59) -/
def nfaWordChar (c : UInt8) : Bool :=
  (0x41 ≤ c && c ≤ 0x5a) || (0x61 ≤ c && c ≤ 0x7a) || (0x30 ≤ c && c ≤ 0x39) || c == 0x5f || c == 0x2e

/-- `[ \t]` (scan.l:81, 82, 86) -/
def nfaBlank (c : UInt8) : Bool := c == 0x20 || c == 0x09

/-- A keyword or a name (scan.l:41-59). -/
def wordToken (w : Text) : NTok :=
  match nfaKeywords.find? fun e => e.1 = w with
  | some e => e.2
  | none => .str w

/-- The tokens of one character (scan.l:62-79). -/
def symbolToken (c : UInt8) : Option NTok :=
  if c = 0x3d then some .equal else if c = 0x7c then some .pipe else if c = 0x26 then some .and
  else if c = 0x7e then some .not else if c = 0x21 then some .not else if c = 0x5e then some .xor
  else if c = 0x3f then some .query else if c = 0x3a then some .colon else if c = 0x3b then some .semicolon
  else if c = 0x28 then some .lparen else if c = 0x29 then some .rparen else if c = 0x7b then some .lbrace
  else if c = 0x7d then some .rbrace else if c = 0x3c then some .langle else if c = 0x3e then some .rangle
  else if c = 0x2c then some .comma else none

/-- `%{` or `%}` with blanks up to the end of the line (scan.l:82, 86): the number of characters, with the newline. -/
def markLine (c : UInt8) (t : Text) : Option Nat :=
  match t with
  | a :: b :: t =>
    if a = 0x25 ∧ b = c then
      let n := (t.takeWhile nfaBlank).length
      if t[n]? = some 0x0a then some (n + 3) else none
    else none
  | _ => none

/-- What is done for one match (scan.l:41-106): the number of characters, the tokens, what is written to the output, the start condition afterwards. -/
structure LexStep where
  n : Nat
  toks : List NTok
  out : Text
  mode : LexMode

/-- `INITIAL` (scan.l:41-84). Where no rule matches the program ends. -/
def lexInitial (bol : Bool) (t : Text) : Res LexStep :=
  match t with
  | [] => .ok ⟨0, [], [], .initial⟩
  | c :: r =>
    if nfaWordChar c then
      let w := t.takeWhile nfaWordChar
      .ok ⟨w.length, [wordToken w], [], .initial⟩
    else if c = 0x23 then
      let n := (r.takeWhile (· ≠ 0x0a)).length
      if r[n]? = some 0x0a then .ok ⟨n + 1, [], [], .initial⟩ else .error (.exit 1)
    else if c = 0x2d then
      if r.head? = some 0x3e then .ok ⟨2, [.arrow], [], .initial⟩ else .error (.exit 1)
    else if c = 0x5b then
      if r.head? = some 0x5e then .ok ⟨2, [.lsquareCaret], [], .charclass⟩ else .ok ⟨1, [.lsquare], [], .charclass⟩
    else if c = 0x0a then .ok ⟨1, [], [], .initial⟩
    else if nfaBlank c then .ok ⟨(t.takeWhile nfaBlank).length, [], [], .initial⟩
    else if c = 0x22 then .ok ⟨1, [], [], .str⟩
    else if c = 0x25 then
      match if bol then markLine 0x7b t else none with
      | some n => .ok ⟨n, [], [], .passthru⟩
      | none => .error (.exit 1)
    else match symbolToken c with
      | some k => .ok ⟨1, [k], [], .initial⟩
      | none => .error (.exit 1)

/-- `PASSTHRU` (scan.l:86-88). -/
def lexPassthru (bol : Bool) (t : Text) : Res LexStep :=
  match if bol then markLine 0x7d t else none with
  | some n => .ok ⟨n, [], [], .initial⟩
  | none =>
    if t.head? = some 0x0a then .ok ⟨1, [], [0x0a], .passthru⟩
    else
      let l := t.takeWhile (· ≠ 0x0a)
      .ok ⟨l.length, [], l, .passthru⟩

/-- `STR` (scan.l:90-91). -/
def lexStr (t : Text) : Res LexStep :=
  if t.head? = some 0x22 then .ok ⟨1, [], [], .initial⟩
  else
    let s := t.takeWhile (· ≠ 0x22)
    .ok ⟨s.length, [.str s], [], .str⟩

/-- The value of a hexadecimal digit (scan.l:104). -/
def hexValue (c : UInt8) : Option Nat :=
  if 0x30 ≤ c && c ≤ 0x39 then some (c.toNat - 0x30)
  else if 0x61 ≤ c && c ≤ 0x66 then some (c.toNat - 0x61 + 10)
  else if 0x41 ≤ c && c ≤ 0x46 then some (c.toNat - 0x41 + 10)
  else none

/-- The value of an octal digit (scan.l:105). -/
def octValue (c : UInt8) : Option Nat := if 0x30 ≤ c && c ≤ 0x37 then some (c.toNat - 0x30) else none

/-- A backslash and what follows (scan.l:95-102, 104-106): the character meant and the length. -/
def classEscape (r : Text) : UInt8 × Nat :=
  match r with
  | [] => (0x5c, 1)
  | d :: r' =>
    if d = 0x2d ∨ d = 0x5d ∨ d = 0x5e ∨ d = 0x5c then (d, 2)
    else if d = 0x6e then (0x0a, 2)
    else if d = 0x72 then (0x0d, 2)
    else if d = 0x66 then (0x0c, 2)
    else if d = 0x74 then (0x09, 2)
    else if d = 0x78 then
      match r' with
      | a :: b :: _ =>
        match hexValue a, hexValue b with
        | some x, some y => (UInt8.ofNat (16 * x + y), 4)
        | _, _ => (0x5c, 1)
      | _ => (0x5c, 1)
    else match octValue d, r' with
      | some x, a :: b :: _ =>
        match octValue a, octValue b with
        | some y, some z => (UInt8.ofNat (64 * x + 8 * y + z), 4)
        | _, _ => (0x5c, 1)
      | _, _ => (0x5c, 1)

/-- `CHARCLASS` (scan.l:93-106). For a newline there is no rule: it is written to the output. -/
def lexClass (t : Text) : Res LexStep :=
  match t with
  | [] => .ok ⟨0, [], [], .charclass⟩
  | c :: r =>
    if c = 0x5d then .ok ⟨1, [.rsquare], [], .initial⟩
    else if c = 0x2d then .ok ⟨1, [.hyphen], [], .charclass⟩
    else if c = 0x0a then .ok ⟨1, [], [0x0a], .charclass⟩
    else if c = 0x5c then
      let e := classEscape r
      .ok ⟨e.2, [.chr e.1], [], .charclass⟩
    else if c = 0x5e then
      match r with
      | d :: _ => if 0x40 ≤ d && d ≤ 0x5a then .ok ⟨2, [.chr (d - 0x40)], [], .charclass⟩ else .ok ⟨1, [.chr c], [], .charclass⟩
      | [] => .ok ⟨1, [.chr c], [], .charclass⟩
    else .ok ⟨1, [.chr c], [], .charclass⟩

/-- One match (scan.l:35-106). -/
def lexStep (mode : LexMode) (bol : Bool) (t : Text) : Res LexStep :=
  match mode with
  | .initial => lexInitial bol t
  | .passthru => lexPassthru bol t
  | .str => lexStr t
  | .charclass => lexClass t

/-- `yylex` (scan.l) until the end of the file: the tokens and the output. `bol` says whether this is the beginning of a line. Every match takes a character, so the length of
the text is enough fuel. -/
def lexLoop : Nat → LexMode → Bool → Text → Res (List NTok × Text)
  | _, _, _, [] => .ok ([], [])
  | 0, _, _, _ => .error .diverges
  | fuel + 1, mode, bol, t => do
    let s ← lexStep mode bol t
    let (toks, out) ← lexLoop fuel s.mode (t[s.n - 1]? == some 0x0a) (t.drop s.n)
    .ok (s.toks ++ toks, s.out ++ out)

/-- The tokens of a file (scan.l) and what it passes on to the output. -/
def lexNfa (t : Text) : Res (List NTok × Text) := lexLoop t.length .initial true t

/-! ## The declarations -/

/-- `stimulus` (parse.y:167-176), with the class itself. -/
inductive PStim where
  | eps
  | word (s : Text)
  | cls (c : ClassExpr)
  | inline (type inn out : Text)
  deriving DecidableEq, Repr

/-- Where a transition goes (parse.y:138-146, 156-158). -/
inductive PGoal where
  | to (l : List Text)
  | tags (l : List Text)
  deriving DecidableEq, Repr

/-- `transition_decl` (parse.y:138-154) -/
structure PTrans where
  seq : List (List PStim)
  goal : PGoal
  deriving DecidableEq, Repr

/-- `state_decl` (parse.y:125-130) -/
structure PState where
  name : Text
  entry : Option Text
  trans : List PTrans
  deriving DecidableEq, Repr

/-- `attr_decl` (parse.y:215-233) -/
inductive PAttr where
  | names (early : Bool) (l : List Text)
  | expr (early : Bool) (name : Text) (e : TagExpr)
  | default (name : Text)
  | type (name : Text)
  deriving DecidableEq, Repr

/-- `decl` (parse.y:90-93) -/
inductive PDecl where
  | abbreviation (name : Text) (l : List PStim)
  | tokens (l : List Text)
  | block (name : Text) (instances : List (Text × Text)) (states : List PState)
  | attr (a : PAttr)
  | group (name : Text) (l : List PAttr)
  | tag (name : Text) (e : TagExpr)
  | «prefix» (name : Text)
  | entrystruct (type var : Text)
  deriving DecidableEq, Repr

/-! ## The parser -/

/-- A part of the parser: what it has read, and the tokens left. -/
abbrev NParser (α : Type) := List NTok → Res (α × List NTok)

/-- `yyerror`, after which the program ends (dfasyn.c, after `yyparse`). -/
def syntaxError {α : Type} : Res α := .error (.exit 1)

/-- A token that must come (parse.y). -/
def expectTok (k : NTok) (ts : List NTok) : Res (List NTok) :=
  match ts with
  | t :: ts => if t = k then .ok ts else syntaxError
  | [] => syntaxError

/-- `STRING` (parse.y:51) -/
def pStr : NParser Text
  | .str s :: ts => .ok (s, ts)
  | _ => syntaxError

/-- `STRING` (parse.y:145, 157, 225, 231) as often as the separator comes before it. -/
def pStrsMore (sep : NTok) : Nat → NParser (List Text)
  | 0, _ => .error .diverges
  | fuel + 1, ts =>
    if ts.head? = some sep then do
      let (s, ts) ← pStr ts.tail
      let (l, ts) ← pStrsMore sep fuel ts
      .ok (s :: l, ts)
    else .ok ([], ts)

/-- `tag_seq`, `destination_seq`, `simple_attr_seq`, `early_attr_seq` (parse.y:144-146, 156-158, 223-233): names with commas between them. -/
def pNames : NParser (List Text) := fun ts => do
  let (s, ts) ← pStr ts
  let (l, ts) ← pStrsMore .comma (ts.length + 1) ts
  .ok (s :: l, ts)

/-- `token_seq` (parse.y:117-119): names. -/
def pTokens : Nat → NParser (List Text)
  | 0, _ => .error .diverges
  | fuel + 1, .str s :: ts => do
    let (l, ts) ← pTokens fuel ts
    .ok (s :: l, ts)
  | _ + 1, ts => .ok ([], ts)

/-- The items of a class (parse.y:209-213). -/
def pItems : Nat → NParser (List ClassItem)
  | 0, _ => .error .diverges
  | fuel + 1, ts =>
    match ts with
    | .chr a :: .hyphen :: .chr b :: ts => do
      let (l, ts) ← pItems fuel ts
      .ok (.range a b :: l, ts)
    | .chr _ :: .hyphen :: _ => syntaxError
    | .chr a :: ts => do
      let (l, ts) ← pItems fuel ts
      .ok (.single a :: l, ts)
    | ts => .ok ([], ts)

/-- `simple_char_class` after its bracket (parse.y:198-207); `cc_body` is not empty. -/
def pSimpleRest (caret : Bool) : NParser SimpleClass := fun ts => do
  let (l, ts) ← pItems (ts.length + 1) ts
  let ts ← expectTok .rsquare ts
  if l = [] then syntaxError else .ok (⟨l, caret⟩, ts)

/-- `simple_char_class` (parse.y:198-207) -/
def pSimple : NParser SimpleClass
  | .lsquare :: ts => pSimpleRest false ts
  | .lsquareCaret :: ts => pSimpleRest true ts
  | _ => syntaxError

/-- `inline_block` after the angle (parse.y:178-180). -/
def pInline : NParser PStim := fun ts => do
  let (a, ts) ← pStr ts
  let ts ← expectTok .colon ts
  let (b, ts) ← pStr ts
  let ts ← expectTok .arrow ts
  let (c, ts) ← pStr ts
  let ts ← expectTok .rangle ts
  .ok (.inline a b c, ts)

/-- `char_class` that begins with a simple one (parse.y:182-196). -/
def pClassFrom (s : SimpleClass) : NParser PStim
  | .not :: ts => do
    let (t, ts) ← pSimple ts
    .ok (.cls (.minus s t), ts)
  | ts => .ok (.cls (.simple s), ts)

/-- `stimulus` (parse.y:167-176). -/
def pStim : NParser PStim
  | .str s :: ts => .ok (.word s, ts)
  | .langle :: ts => pInline ts
  | .not :: ts => do
    let (s, ts) ← pSimple ts
    .ok (.cls (.negated s), ts)
  | .lsquare :: ts => do
    let (s, ts) ← pSimpleRest false ts
    pClassFrom s ts
  | .lsquareCaret :: ts => do
    let (s, ts) ← pSimpleRest true ts
    pClassFrom s ts
  | ts => .ok (.eps, ts)

/-- The rest of `stimulus_seq` (parse.y:160-164). -/
def pAltsMore : Nat → NParser (List PStim)
  | 0, _ => .error .diverges
  | fuel + 1, ts =>
    if ts.head? = some .pipe then do
      let (s, ts) ← pStim ts.tail
      let (l, ts) ← pAltsMore fuel ts
      .ok (s :: l, ts)
    else .ok ([], ts)

/-- `stimulus_seq` (parse.y:160-164) -/
def pAlts : NParser (List PStim) := fun ts => do
  let (s, ts) ← pStim ts
  let (l, ts) ← pAltsMore (ts.length + 1) ts
  .ok (s :: l, ts)

/-- The rest of `transition_seq` (parse.y:148-154). -/
def pSeqMore : Nat → NParser (List (List PStim))
  | 0, _ => .error .diverges
  | fuel + 1, ts =>
    if ts.head? = some .semicolon then do
      let (s, ts) ← pAlts ts.tail
      let (l, ts) ← pSeqMore fuel ts
      .ok (s :: l, ts)
    else .ok ([], ts)

/-- `transition_decl` (parse.y:138-142). -/
def pTrans : NParser PTrans := fun ts => do
  let (s, ts) ← pAlts ts
  let (l, ts) ← pSeqMore (ts.length + 1) ts
  match ts with
  | .arrow :: ts => do
    let (g, ts) ← pNames ts
    .ok (⟨s :: l, .to g⟩, ts)
  | .equal :: ts => do
    let (g, ts) ← pNames ts
    .ok (⟨s :: l, .tags g⟩, ts)
  | _ => syntaxError

/-- `sdecl_seq` (parse.y:132-134): it ends before another state or the end of the block. -/
def pTransitions : Nat → NParser (List PTrans)
  | 0, _ => .error .diverges
  | fuel + 1, ts =>
    if ts.head? = some .state ∨ ts.head? = some .rbrace then .ok ([], ts)
    else do
      let (t, ts) ← pTrans ts
      let (l, ts) ← pTransitions fuel ts
      .ok (t :: l, ts)

/-- `ENTRY STRING` (parse.y:127) -/
def pEntry : NParser (Option Text)
  | .entry :: ts => do
    let (s, ts) ← pStr ts
    .ok (some s, ts)
  | ts => .ok (none, ts)

/-- `state_decl_seq` (parse.y:123-130). -/
def pStates : Nat → NParser (List PState)
  | 0, _ => .error .diverges
  | fuel + 1, ts =>
    if ts.head? = some .state then do
      let (n, ts) ← pStr ts.tail
      let (e, ts) ← pEntry ts
      let (l, ts) ← pTransitions (ts.length + 1) ts
      let (ss, ts) ← pStates fuel ts
      .ok (⟨n, e, l⟩ :: ss, ts)
    else .ok ([], ts)

/-- `instance_decl_seq` (parse.y:121, 136). -/
def pInstances : Nat → NParser (List (Text × Text))
  | 0, _ => .error .diverges
  | fuel + 1, .str a :: ts => do
    let ts ← expectTok .colon ts
    let (b, ts) ← pStr ts
    let (l, ts) ← pInstances fuel ts
    .ok ((a, b) :: l, ts)
  | _ + 1, ts => .ok ([], ts)

/-- `block_decl` after `BLOCK` (parse.y:97-101). -/
def pBlock : NParser PDecl := fun ts => do
  let (n, ts) ← pStr ts
  let ts ← expectTok .lbrace ts
  let (is, ts) ← pInstances (ts.length + 1) ts
  let (ss, ts) ← pStates (ts.length + 1) ts
  let ts ← expectTok .rbrace ts
  .ok (.block n is ss, ts)

/-- How tight the operators bind (parse.y:76-80). -/
inductive ELevel where
  | cond | or | xor | and | unary
  deriving DecidableEq, Repr

/-- Left-associative operators (parse.y:77-79, 252-254): `a` has been read. -/
def pChain (op : NTok) (mk : TagExpr → TagExpr → TagExpr) (p : NParser TagExpr) : Nat → TagExpr → NParser TagExpr
  | 0, _, _ => .error .diverges
  | fuel + 1, a, ts =>
    if ts.head? = some op then do
      let (b, ts) ← p ts.tail
      pChain op mk p fuel (mk a b) ts
    else .ok (a, ts)

/-- `expr` (parse.y:251-258). -/
def pExpr : Nat → ELevel → NParser TagExpr
  | 0, _, _ => .error .diverges
  | fuel + 1, .cond, ts => do
    let (c, ts) ← pExpr fuel .or ts
    if ts.head? = some .query then do
      let (a, ts) ← pExpr fuel .cond ts.tail
      let ts ← expectTok .colon ts
      let (b, ts) ← pExpr fuel .cond ts
      .ok (.cond c a b, ts)
    else .ok (c, ts)
  | fuel + 1, .or, ts => do
    let (a, ts) ← pExpr fuel .xor ts
    pChain .pipe .or (pExpr fuel .xor) (ts.length + 1) a ts
  | fuel + 1, .xor, ts => do
    let (a, ts) ← pExpr fuel .and ts
    pChain .xor .xor (pExpr fuel .and) (ts.length + 1) a ts
  | fuel + 1, .and, ts => do
    let (a, ts) ← pExpr fuel .unary ts
    pChain .and .and (pExpr fuel .unary) (ts.length + 1) a ts
  | fuel + 1, .unary, ts =>
    match ts with
    | .str s :: ts => .ok (.tag s, ts)
    | .not :: ts => do
      let (e, ts) ← pExpr fuel .unary ts
      .ok (.not e, ts)
    | .lparen :: ts => do
      let (e, ts) ← pExpr fuel .cond ts
      let ts ← expectTok .rparen ts
      .ok (e, ts)
    | _ => syntaxError

/-- An expression (parse.y:251-258): six rounds for each token are enough. -/
def pExpression : NParser TagExpr := fun ts => pExpr (6 * ts.length + 6) .cond ts

/-- `attr_decl` after `ATTR` or `EARLY ATTR` (parse.y:215-218): a colon after the first name makes it one with an expression. -/
def pAttrRest (early : Bool) : NParser PAttr := fun ts => do
  let (s, ts) ← pStr ts
  if ts.head? = some .colon then do
    let (e, ts) ← pExpression ts.tail
    .ok (.expr early s e, ts)
  else do
    let (l, ts) ← pStrsMore .comma (ts.length + 1) ts
    .ok (.names early (s :: l), ts)

/-- `attr_decl` (parse.y:215-221); nothing for another token. -/
def pAttr (ts : List NTok) : Option (Res (PAttr × List NTok)) :=
  match ts with
  | .attr :: ts => some (pAttrRest false ts)
  | .early :: ts => some (do
    let ts ← expectTok .attr ts
    pAttrRest true ts)
  | .defattr :: ts => some (do
    let (s, ts) ← pStr ts
    .ok (.default s, ts))
  | .type :: ts => some (do
    let (s, ts) ← pStr ts
    .ok (.type s, ts))
  | _ => none

/-- `attr_decl_seq` (parse.y:240-242). -/
def pAttrs : Nat → NParser (List PAttr)
  | 0, _ => .error .diverges
  | fuel + 1, ts =>
    match pAttr ts with
    | some r => do
      let (a, ts) ← r
      let (l, ts) ← pAttrs fuel ts
      .ok (a :: l, ts)
    | none => .ok ([], ts)

/-- `decl` (parse.y:90-119, 235-249). -/
def pDecl (ts : List NTok) : Res (PDecl × List NTok) :=
  match ts with
  | .block :: ts => pBlock ts
  | .tokens :: ts => do
    let (s, ts) ← pStr ts
    let (l, ts) ← pTokens (ts.length + 1) ts
    .ok (.tokens (s :: l), ts)
  | .abbrev :: ts => do
    let (s, ts) ← pStr ts
    let ts ← expectTok .equal ts
    let (l, ts) ← pAlts ts
    .ok (.abbreviation s l, ts)
  | .group :: ts => do
    let (s, ts) ← pStr ts
    let ts ← expectTok .lbrace ts
    let (l, ts) ← pAttrs (ts.length + 1) ts
    let ts ← expectTok .rbrace ts
    .ok (.group s l, ts)
  | .tag :: ts => do
    let (s, ts) ← pStr ts
    let ts ← expectTok .equal ts
    let (e, ts) ← pExpression ts
    .ok (.tag s e, ts)
  | .prefix :: ts => do
    let (s, ts) ← pStr ts
    .ok (.prefix s, ts)
  | .entrystruct :: ts => do
    let (a, ts) ← pStr ts
    let (b, ts) ← pStr ts
    .ok (.entrystruct a b, ts)
  | ts =>
    match pAttr ts with
    | some r => do
      let (a, ts) ← r
      .ok (.attr a, ts)
    | none => syntaxError

/-- `decl_seq` (parse.y:86-88) up to the end of the file. -/
def pDecls : Nat → List NTok → Res (List PDecl)
  | _, [] => .ok []
  | 0, _ => .error .diverges
  | fuel + 1, ts => do
    let (d, ts) ← pDecl ts
    let l ← pDecls fuel ts
    .ok (d :: l)

/-- `yyparse` (parse.y:86): the declarations of a file and what it passes on to the output. -/
def parseNfa (t : Text) : Res (List PDecl × Text) := do
  let (toks, out) ← lexNfa t
  let l ← pDecls toks.length toks
  .ok (l, out)

/-! ## The classes numbered -/

/-- `add_charclass_to_list` (parse.y:172): the classes are numbered as they come; the lists hold those so far. -/
def PStim.number (cs : List ClassExpr) : PStim → Stim × List ClassExpr
  | .eps => (.eps, cs)
  | .word s => (.word (nameOf s), cs)
  | .cls c => (.cls cs.length, cs ++ [c])
  | .inline a b c => (.inline (nameOf a) (nameOf b) (nameOf c), cs)

/-- One after the other, with the classes so far (parse.y:172). -/
def numberAll {α β : Type} (f : List ClassExpr → α → β × List ClassExpr) : List ClassExpr → List α → List β × List ClassExpr
  | cs, [] => ([], cs)
  | cs, a :: l =>
    let (b, cs) := f cs a
    let (l, cs) := numberAll f cs l
    (b :: l, cs)

/-- Where a transition goes (parse.y:138-146), with the names as the model has them. -/
def PGoal.number : PGoal → Goal
  | .to l => .to (l.map nameOf)
  | .tags l => .tags l

/-- A transition (parse.y:138-154) with its classes numbered. -/
def PTrans.number (cs : List ClassExpr) (t : PTrans) : TransDecl × List ClassExpr :=
  let (l, cs) := numberAll (numberAll PStim.number) cs t.seq
  (⟨l, t.goal.number⟩, cs)

/-- A state (parse.y:125-130) with its classes numbered. -/
def PState.number (cs : List ClassExpr) (s : PState) : StateDecl × List ClassExpr :=
  let (l, cs) := numberAll PTrans.number cs s.trans
  (⟨nameOf s.name, s.entry, l⟩, cs)

/-- The attributes declared (parse.y:215-233). -/
def PAttr.decls : PAttr → List AttrDecl
  | .names early l => l.map fun s => .attr s none early
  | .expr early s e => [.attr s (some e) early]
  | .default s => [.default s]
  | .type _ => []

/-- The declarations that make a difference to the automaton (parse.y:90-119, 235-249): the prefix, the type and the entry structure only name things in the C code written. -/
def PDecl.number (cs : List ClassExpr) : PDecl → List Decl × List ClassExpr
  | .abbreviation s l =>
    let (l, cs) := numberAll PStim.number cs l
    ([.abbreviation (nameOf s) l], cs)
  | .tokens l => ([.tokens (l.map nameOf)], cs)
  | .block s is ss =>
    let (l, cs) := numberAll PState.number cs ss
    ([.block (nameOf s) (is.map fun i => (nameOf i.1, nameOf i.2)) l], cs)
  | .attr a => (a.decls.map .attr, cs)
  | .group s l => ([.group s (l.flatMap PAttr.decls)], cs)
  | .tag s e => ([.tag s e], cs)
  | .prefix _ => ([], cs)
  | .entrystruct _ _ => ([], cs)

/-- The file as the actions of parse.y:86-258 see it. -/
def nfaFile (l : List PDecl) : NfaFile :=
  let (ds, cs) := numberAll PDecl.number [] l
  ⟨cs, ds.flatten⟩

/-- Reading an input file (dfasyn.c:585-588). -/
def readNfaText (t : Text) : Res NfaFile := do
  let (l, _) ← parseNfa t
  .ok (nfaFile l)

/-- `dfasyn` on an input file (dfasyn.c:585-640). -/
def dfasynText (sort : StateSort) (compress : Bool) (t : Text) : Res CharScanner := do
  let f ← readNfaText t
  dfasyn sort compress f

end Mairix
