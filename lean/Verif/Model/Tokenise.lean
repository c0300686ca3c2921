import Verif.Model.TokTable

/-!
# Splitting texts into words: db.c:496-613
-/

namespace Mairix

/-- The non-zero entries of `special_table` (db.c:531-548). -/
def specialTable (c : UInt8) : Nat :=
  if c = 0x2b then 2 else if c = 0x2d then 2 else if c = 0x2e then 2
  else if c = 0x40 then 2 else if c = 0x5f then 3 else 0

/-- `char_valid_p` (db.c:553-559). -/
def charValid (mask : Nat) (c : UInt8) : Bool :=
  if isAlnum c then true else if specialTable c &&& mask ≠ 0 then true else false

/-- The `for (;;)` loop of `tokenise_string` (db.c:565-580): the texts `[ss,es)` passed to
`add_token_in_file`, in order. The fuel counts iterations. -/
def scanWords (mask : Nat) : Nat → Text → Res (List Text)
  | 0, _ => .error .diverges
  | fuel + 1, data =>
    match data.dropWhile (fun c => !charValid mask c) with
    | [] => .ok []
    | c :: r =>
      let es := r.dropWhile (charValid mask)
      let word := c :: r.takeWhile (charValid mask)
      if es = [] then .ok [word]
      else do
        let ws ← scanWords mask fuel es
        .ok (word :: ws)

/-- The loop that skips to the next word in `tokenise_html_string` (db.c:592-597). -/
def skipHtml : Nat → Text → Res Text
  | 0, _ => .error .diverges
  | _ + 1, [] => .ok []
  | fuel + 1, c :: r =>
    if charValid 1 c then .ok (c :: r)
    else if c = 0x3c then skipHtml fuel (r.dropWhile (· ≠ 0x3e))
    else skipHtml fuel r

/-- The `for (;;)` loop of `tokenise_html_string` (db.c:590-612). -/
def scanHtml : Nat → Text → Res (List Text)
  | 0, _ => .error .diverges
  | fuel + 1, data => do
    let ss ← skipHtml (data.length + 1) data
    match ss with
    | [] => .ok []
    | c :: r =>
      let es := r.dropWhile (charValid 1)
      let word := c :: r.takeWhile (charValid 1)
      if es = [] then .ok [word]
      else do
        let ws ← scanHtml fuel es
        .ok (word :: ws)

/-- Adding each word of a text for message `i`. -/
def addWords (hash : Text → Nat) (i : Nat) : List Text → Table Matches → Res (Table Matches)
  | [], t => .ok t
  | w :: ws, t => do
    let t ← addToken hash t w i
    addWords hash i ws t

/-- `tokenise_string` (db.c:561-581). Simplification: the words are found first and added
afterwards; the code interleaves the two, which do not affect each other. -/
def tokeniseString (hash : Text → Nat) (i : Nat) (t : Table Matches) (data : Text) (mask : Nat) :
    Res (Table Matches) := do
  let ws ← scanWords mask (data.length + 1) data
  addWords hash i ws t

/-- `tokenise_html_string` (db.c:583-613), with the same simplification. -/
def tokeniseHtml (hash : Text → Nat) (i : Nat) (t : Table Matches) (data : Text) :
    Res (Table Matches) := do
  let ws ← scanHtml (data.length + 1) data
  addWords hash i ws t

/-- The loop of `add_angled_terms` (db.c:501-512): the texts passed to `add_token2_in_file`. -/
def scanAngled : Nat → Text → Res (List Text)
  | 0, _ => .error .diverges
  | fuel + 1, s =>
    match s.dropWhile (· ≠ 0x3c) with
    | [] => .ok []
    | left :: r =>
      -- `strchr(left, '>')` starts at the `<` itself
      match (left :: r).dropWhile (· ≠ 0x3e) with
      | [] => .ok []
      | right :: r' => do
        let ts ← scanAngled fuel (right :: r')
        .ok (r.takeWhile (· ≠ 0x3e) :: ts)

/-- Adding each id for message `i`. -/
def addIds (hash : Text → Nat) (i : Nat) (own : Bool) : List Text → Table Matches2 → Res (Table Matches2)
  | [], t => .ok t
  | w :: ws, t => do
    let t ← addToken2 hash t w i own
    addIds hash i own ws t

/-- `add_angled_terms` (db.c:496-514); `s` is `none` for a null pointer. -/
def addAngledTerms (hash : Text → Nat) (i : Nat) (t : Table Matches2) (own : Bool) :
    Option Text → Res (Table Matches2)
  | none => .ok t
  | some s => do
    let ts ← scanAngled (s.length + 1) s
    addIds hash i own ts t

end Mairix
