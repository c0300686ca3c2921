import Verif.Model.Decode
import Verif.Model.Message

/-!
# The header of a message: rfc822.c:113-215, 296-387, 619-671, 925-1000

Strings are C strings: texts without their final null byte. The position behind a text reads as that null byte.
-/

namespace Mairix

/-! ## Encoded words -/

/-- `strstr(s, pat)` with a pattern of two characters: what is before its first occurrence, and what is behind it. -/
def strstr2 (x y : UInt8) : Text → Option (Text × Text)
  | a :: b :: t => if a = x ∧ b = y then some ([], t) else (strstr2 x y (b :: t)).map fun (p, r) => (a :: p, r)
  | _ => none

/-- `strchr(s, c)`: what is before the first occurrence, and what is behind it. -/
def strchr (c : UInt8) : Text → Option (Text × Text)
  | [] => none
  | a :: t => if a = c then some ([], t) else (strchr c t).map fun (p, r) => (a :: p, r)

/-- The loop of the Q encoding (rfc822.c:325-336), with fuel: `mem` is the text from `q` on, `n` the number of characters up to `e`, `pos` the position of `q`, `out` what has been written before `p`. The result is written over the text:
a write that is not before the characters still to be read would destroy them, which is a fault here. -/
def qWord : Nat → Text → Nat → Nat → Text → Res Text
  | 0, _, _, _, _ => .error .diverges
  | fuel + 1, mem, n, pos, out =>
    if n = 0 then .ok out
    else match mem with
      | [] => .error .outOfBounds
      | c :: q =>
        if c = 0x5f then do
          let out ← storeTo (pos + 1) out 0x20
          qWord fuel q (n - 1) (pos + 1) out
        else if c = 0x3d then
          match q with
          | a :: b :: q => do
            let out ← storeTo (pos + 3) out (UInt8.ofNat (hexVal a * 16 + hexVal b))
            qWord fuel q (n - 3) (pos + 3) out
          | _ => .error .outOfBounds
        else do
          let out ← storeTo (pos + 1) out c
          qWord fuel q (n - 1) (pos + 1) out

/-- The loop of the B encoding (rfc822.c:341-360): the same as in `unencode_data`, but the limit for writing moves with `q`. -/
def bWord : Text → Nat → B64 → Text → Res Text
  | [], _, _, out => .ok out
  | c :: rest, pos, s, out =>
    let eq := s.eq + equalTable c
    match base64Table c with
    | none => bWord rest (pos + 1) { s with eq := eq } out
    | some dc =>
      let reg := s.reg * 64 + dc
      if s.nc + 1 = 4 then do
        let out ← storeAll (pos + 1) out (b64Bytes reg eq)
        if eq ≠ 0 then .ok out else bWord rest (pos + 1) ⟨0, 0, eq⟩ out
      else bWord rest (pos + 1) ⟨reg, s.nc + 1, eq⟩ out

/-- `decode_header_value` (rfc822.c:296-365) from one round of its loop on, with fuel. `out` is the text before `p`, `pend` the text between `q` and `s`, `rest` the text from `s` on and `pos` the position of `s`. (If `p` equals `q` the code moves both
instead of copying; the bytes are the same.) The result is what is in the memory up to the final null byte. -/
def headerLoop : Nat → Text → Text → Text → Nat → Res Text
  | 0, _, _, _, _ => .error .diverges
  | fuel + 1, out, pend, rest, pos =>
    match strstr2 0x3d 0x3f rest with
    | none => .ok (out ++ pend ++ rest)
    | some (pre, r) =>
      let out := out ++ pend ++ pre
      match strchr 0x3f r with
      | none => .ok (out ++ bs "=?" ++ r)
      | some (cs, ra) =>
        match strchr 0x3f ra with
        | none => .ok (out ++ bs "=?" ++ r)
        | some (enc, rb) =>
          match strstr2 0x3f 0x3d rb with
          | none => .ok (out ++ bs "=?" ++ r)
          | some (body, re) =>
            let posB := pos + pre.length + 2 + cs.length + 1 + enc.length + 1
            let pend := bs "=?" ++ cs ++ bs "?" ++ enc ++ bs "?" ++ body ++ bs "?="
            let posE := posB + body.length + 2
            if enc = bs "q" ∨ enc = bs "Q" then do
              let out ← qWord (body.length + 1) rb body.length posB out
              headerLoop fuel out [] re posE
            else if enc = bs "b" ∨ enc = bs "B" then do
              let out ← bWord body posB ⟨0, 0, 0⟩ out
              headerLoop fuel out [] re posE
            else headerLoop fuel out pend re posE

/-- `decode_header_value` (rfc822.c:296-365): a null byte that was encoded ends the string. -/
def decodeHeaderValue (text : Text) : Res Text := do
  let r ← headerLoop (text.length + 1) [] [] text 0
  .ok (r.takeWhile (· != 0))

/-- `copy_header_value` (rfc822.c:367-376). -/
def copyHeaderValue (text : Text) : Res (Option Text) :=
  match strchr 0x3a text with
  | none => .ok none
  | some (_, v) => (decodeHeaderValue v).map some

/-- `copy_or_concat_header_value` (rfc822.c:377-388). (If there is no colon the code would pass a null pointer to `extend_string`.) -/
def copyOrConcat (previous : Option Text) (text : Text) : Res (Option Text) := do
  let p ← copyHeaderValue text
  match previous, p with
  | none, p => .ok p
  | some v, some p => .ok (some (v ++ bs ", " ++ p))
  | some _, none => .error .outOfBounds

/-! ## Lines -/

/-- What `audit_header` says about a line (rfc822.c:176-194): whether there is a word, without white space, before its first colon. -/
def wordColon : Bool → Text → Bool
  | _, [] => false
  | saw, c :: t => if c = 0x3a then saw else if isSpace c then false else wordColon true t

/-- Whether a line begins with white space (rfc822.c:171-173). -/
def leadingSpace : Text → Bool
  | [] => false
  | c :: _ => isSpace c

/-- `audit_header` (rfc822.c:150-215). -/
def auditHeader : Bool → List Text → Bool
  | _, [] => true
  | first, x :: xs =>
    if bs "From " <+: x ∨ bs ">From " <+: x then auditHeader first xs
    else
      let isBlank := x.isEmpty
      let leading := leadingSpace x
      let word := wordColon false x
      if (first ∧ (isBlank ∨ leading ∨ ¬ word)) ∨ (¬ first ∧ (isBlank ∨ ¬ (leading ∨ word))) then false
      else auditHeader false xs

/-- What is glued to the previous line (rfc822.c:127-131): the line from the last of its leading white space on. -/
def glued (x : Text) : Text := x.drop ((x.takeWhile isSpace).length - 1)

/-- `splice_header_lines` (rfc822.c:113-148): `done` are the lines before `x`, in order. Gluing to the list head, whose `text` was never set, is a fault. -/
def spliceLines : List Text → List Text → Res (List Text)
  | done, [] => .ok done
  | done, x :: xs =>
    match x with
    | [] => spliceLines (done ++ [x]) xs
    | c :: _ =>
      if isSpace c then
        match done.getLast? with
        | none => .error .uninitialised
        | some y => spliceLines (done.dropLast ++ [y ++ glued x]) xs
      else spliceLines (done ++ [x]) xs

/-- How the reading of one line ends (rfc822.c:629-655). -/
inductive LineEnd
  /-- a newline, and what comes behind it -/
  | newline (rest : Text)
  /-- the end of the data -/
  | dataEnd
  /-- a null character -/
  | null
deriving DecidableEq

/-- One line (rfc822.c:629-637): its text and how it ends. `n` is the number of bytes of data from here on. -/
def takeLine : Text → Text × LineEnd
  | [] => ([], .dataEnd)
  | c :: t => if c = 0 then ([], .null) else if c = 0x0a then ([], .newline t) else let (l, e) := takeLine t; (c :: l, e)

/-- The loop of `split_and_splice_header` (rfc822.c:625-656), with fuel: the lines and the body. `none` is the result -1. -/
def splitHeader : Nat → Text → List Text → Res (Option (List Text × Text))
  | 0, _, _ => .error .diverges
  | fuel + 1, data, lines =>
    match data with
    | [] => .ok (some (lines, data))
    | c :: _ =>
      if c = 0 then .ok (some (lines, data))
      else match takeLine data with
        | (_, .dataEnd) => .ok none
        | (_, .null) => .ok none
        | (l, .newline rest) => if l.all isSpace then .ok (some (lines, rest)) else splitHeader fuel rest (lines ++ [l])

/-- `split_and_splice_header` (rfc822.c:619-671): the lines of the header, each with its continuation lines, and the body. -/
def splitAndSplice (data : Text) : Res (Option (List Text × Text)) := do
  match ← splitHeader (data.length + 1) data [] with
  | none => .ok none
  | some (lines, body) =>
    if auditHeader true lines then do
      let lines ← spliceLines [] lines
      .ok (some (lines, body))
    else .ok none

/-! ## Values -/

/-- `scan_status_flags` (rfc822.c:989-1000). -/
def scanStatusFlags : Text → Headers → Headers
  | [], h => h
  | c :: t, h =>
    scanStatusFlags t (if c = 0x52 then { h with seen := true } else if c = 0x41 then { h with replied := true } else if c = 0x46 then { h with flagged := true } else h)

end Mairix
