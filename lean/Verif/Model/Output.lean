import Verif.Model.ReadDb
import Verif.Model.DbFile

/-!
# What a search writes: search.c:559-761, 1083-1210

Names of the files in a results folder, and the contents of an mbox results folder.
-/

namespace Mairix

/-- `sprintf` with `%d` for a number that is not negative. -/
def digits (n : Nat) : Text := (Nat.toDigits 10 n).map fun c => UInt8.ofNat c.toNat

/-- A C array of `n` bytes that is to hold the string `t` and its NUL. -/
def intoArray (n : Nat) (t : Text) : Res Text := if t.length + 1 ≤ n then .ok t else .error .outOfBounds

/-- `mk_maildir_path` (search.c:559-579). The numbers are the sizes of `uniq_buf` and of `result`; the latter is the length of
`output_dir` and 64, 1 and `sizeof(":2,FRS")` more. -/
def mkMaildirPath (token : Nat) (outputDir : Text) (isInNew isSeen isReplied isFlagged : Bool) : Res Text := do
  let result := outputDir ++ (if isInNew then bs "/new/" else bs "/cur/")
  let uniq ← intoArray 48 (bs "123456789." ++ digits token ++ bs ".mairix")
  let result := result ++ uniq
  let result := if isSeen || isReplied || isFlagged then result ++ bs ":2," else result
  let result := if isFlagged then result ++ bs "F" else result
  let result := if isReplied then result ++ bs "R" else result
  let result := if isSeen then result ++ bs "S" else result
  intoArray (outputDir.length + 64 + 1 + 7) result

/-- `mk_mh_path` (search.c:581-594). -/
def mkMhPath (token : Nat) (outputDir : Text) : Res Text := do
  if token + 1 < 2 ^ 31 then
    let uniq ← intoArray 11 (digits (token + 1))
    intoArray (outputDir.length + 12) (outputDir ++ bs "/" ++ uniq)
  else .error .overflow

/-- The loops `while ((s > p) && (*s != '/')) s--` of `looks_like_maildir_new_p` (search.c:600, 603), from position `i`. -/
def backToSlash (p : Text) : Nat → Nat
  | 0 => 0
  | i + 1 => if p[i + 1]? = some 0x2f then i + 1 else backToSlash p i

/-- `looks_like_maildir_new_p` (search.c:596-611). -/
def looksLikeMaildirNew (p : Text) : Bool :=
  let s2 := backToSlash p p.length
  if s2 = 0 then false
  else
    let s1 := backToSlash p (s2 - 1)
    if s1 = 0 then false
    else (p.drop s1).take 5 == bs "/new/"

/-- `get_flags_from_file` (search.c:775-780): seen, replied, flagged. -/
def flagsOf (m : DbMsg) : Bool × Bool × Bool :=
  (m.typeAndFlags &&& FLAG_SEEN != 0, m.typeAndFlags &&& FLAG_REPLIED != 0, m.typeAndFlags &&& FLAG_FLAGGED != 0)

/-- The name made for message `i` in a maildir (search.c:1084-1118); `none` for a dead message. -/
def maildirName (dir : Text) (i : Nat) (m : DbMsg) : Res (Option Text) :=
  let (seen, replied, flagged) := flagsOf m
  if m.type = DB_MSG_FILE then (mkMaildirPath i dir (looksLikeMaildirNew m.path) seen replied flagged).map some
  else if m.type = DB_MSG_IMAP then (mkMaildirPath i dir false seen replied flagged).map some
  else if m.type = DB_MSG_MBOX then (mkMaildirPath i dir (!seen) seen replied flagged).map some
  else .ok none

/-- The name made for the `ii`-th result in an MH folder (search.c:1121-1147). -/
def mhName (dir : Text) (ii : Nat) (m : DbMsg) : Res (Option Text) :=
  if m.type = DB_MSG_FILE ∨ m.type = DB_MSG_IMAP ∨ m.type = DB_MSG_MBOX then (mkMhPath ii dir).map some
  else .ok none

/-- The names made for all results in a maildir (search.c:1084-1118), for as long as nothing goes wrong. -/
def maildirNames (dir : Text) (db : ReadDb) : List Nat → Res (List (Option Text))
  | [] => .ok []
  | i :: rest =>
    match db.msgs[i]? with
    | none => .error .outOfBounds
    | some m => do
      let a ← maildirName dir i m
      let l ← maildirNames dir db rest
      .ok (a :: l)

/-- The names made for all results from the `ii`-th on in an MH folder (search.c:1121-1147). -/
def mhNames (dir : Text) (db : ReadDb) : Nat → List Nat → Res (List (Option Text))
  | _, [] => .ok []
  | ii, i :: rest =>
    match db.msgs[i]? with
    | none => .error .outOfBounds
    | some m => do
      let a ← mhName dir ii m
      let l ← mhNames dir db (ii + 1) rest
      .ok (a :: l)

/-! ## Results in an mbox -/

/-- `mbox_terminate` (search.c:623-635): what is added after `data`. -/
def mboxTerminate (data : Text) : Text :=
  if data.length = 0 then bs "\n"
  else if data.length = 1 then if data[0]? ≠ some 0x0a then bs "\n" else []
  else if data[data.length - 1]? ≠ some 0x0a then bs "\n\n"
  else if data[data.length - 2]? ≠ some 0x0a then bs "\n"
  else []

/-- The line written before each message (search.c:643, 655, 726). -/
def artificialFrom : Text := bs "From mairix@mairix Mon Jan  1 12:34:56 1970\n"

/-- `append_file_to_mbox` (search.c:637-650) and `append_mboxmsg_to_mbox` (search.c:715-735): what is written for a message
with this data, the path being that of the file or of the mbox. -/
def appendMessage (path data : Text) : Text :=
  artificialFrom ++ (bs "X-source-folder: " ++ path ++ bs "\n") ++ data ++ mboxTerminate data

/-- `append_data_to_mbox` (search.c:652-660), for messages on IMAP servers. -/
def appendData (data : Text) : Text := artificialFrom ++ data ++ bs "\n"

/-- `get_validated_mbox_msg` (search.c:676-712): the data of message `m` in the mbox with the contents `mbox`, `none` if its
checksum is not `stored`. The comparisons are of 32-bit unsigned numbers; a length of 2^31 or more becomes negative, and
then an enormous `size_t`. -/
def validatedMsg (md5 : Text → List UInt8) (mbox : Text) (m : DbMsg) (stored : List UInt8) : Res (Option Text) :=
  let msgLen :=
    if m.mtime ≥ mbox.length then 0
    else if (m.mtime + m.size) % 2 ^ 32 ≥ mbox.length then mbox.length - m.mtime
    else m.size
  if msgLen = 0 ∨ m.mtime + msgLen ≤ mbox.length then
    let data := (mbox.drop m.mtime).take msgLen
    .ok (if stored = md5 data then some data else none)
  else .error .outOfBounds

/-- `try_copy_to_path` (search.c:737-760): the file made for a message of an mbox in a maildir or MH folder. -/
def copiedMessage (path data : Text) : Text :=
  bs "X-source-folder: " ++ path ++ bs "\n" ++ data.take (if data.length ≠ 0 then data.length - 1 else 0)

/-- A result that could be read, with what `append_*` (search.c:1161-1181) needs of it. -/
inductive Found where
  | file (path data : Text)
  | imap (data : Text)
  | mbox (path data : Text)
  deriving DecidableEq, Repr

/-- What is appended for a result (search.c:1163-1180). -/
def Found.appended : Found → Text
  | .file path data => appendMessage path data
  | .imap data => appendData data
  | .mbox path data => appendMessage path data

/-- What is appended to the results folder for the results in order (search.c:1150-1184). Results that cannot be read are left
out, as in the code. -/
def mboxOutput (l : List Found) : Text := l.flatMap Found.appended

end Mairix
