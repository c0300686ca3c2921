import Verif.Model.ImapLine
import Verif.Model.Glob
import Verif.Model.Mime

/-!
# Folders and messages on an IMAP server: imap.c:837-857, 1236-1323 and imapinterface.c

The functions are written for any way `exec` to run a command (`imap_ll_command`): it gets the state of the connection and the command
below its tag, and returns the lines of the result, or the null pointer, and the state afterwards.  Reading through a null pointer is
the fault `outOfBounds`.
-/

namespace Mairix

/-- The type of `imap_ll_command` (imap.c:669-712). -/
abbrev Exec (σ : Type) := σ → List ImapTok → Res (Option (List ImapLine) × σ)

/-- `selected_folder` and what is known about it (imap.c:35-39). -/
structure Selected where
  name : Text
  uidvalidity : Text
  writable : Bool
  exists_ : Nat
  deriving DecidableEq

/-- A connection with the folder that was selected last. -/
structure Sess (σ : Type) where
  conn : σ
  sel : Option Selected := none

/-- `t->type == TLTYPE_ATOM && 0 == strcmp(t->leaf, w)`. -/
def ImapTok.isWord (t : ImapTok) (w : Text) : Bool :=
  match t with
  | .atom s => cstr s == w
  | _ => false

/-- `imap_ll_status` (imap.c:837-844). -/
def imapStatus (r : Option (List ImapLine)) : Res Text :=
  match r with
  | none => .error .outOfBounds
  | some ls =>
    match ls.getLast? with
    | none => .error .outOfBounds
    | some l =>
      match l.items with
      | .atom s :: _ => .ok (cstr s)
      | _ => .ok (bs "BAD")

/-- `imap_ll_is_trycreate` (imap.c:846-857). -/
def isTrycreate (r : Option (List ImapLine)) : Res Bool := do
  let st ← imapStatus r
  if st = bs "NO" then
    match (r.bind List.getLast?).map ImapLine.items with
    | some (_ :: ImapTok.sqlist (t :: _) :: _) => .ok (t.isWord (bs "TRYCREATE"))
    | _ => .ok false
  else .ok false

/-- `atol` of a leaf, as far as it is positive: white space, a sign and digits; other texts are 0, and so are negative numbers
(the value is only compared with 1, imapinterface.c:79). -/
def atolLeaf (s : Text) : Nat :=
  let s := (cstr s).dropWhile isSpace
  let s := if s.head? = some 43 then s.tail else s
  decimal (s.takeWhile isDigit)

/-- One line of the answer to SELECT (imap.c:1279-1302): UIDVALIDITY and the number of messages so far. -/
def selectLine (acc : Option Text × Nat) (l : ImapLine) : Option Text × Nat :=
  match l.items with
  | .atom a :: rest =>
    if cstr a = bs "OK" then
      match rest with
      | .sqlist (t :: .atom v :: _) :: _ => if t.isWord (bs "UIDVALIDITY") then (some (cstr v), acc.2) else acc
      | _ => acc
    else
      match rest with
      | t :: _ => if t.isWord (bs "EXISTS") then (acc.1, atolLeaf a) else acc
      | [] => acc
  | _ => acc

/-- `imap_select` (imap.c:1236-1323): the UIDVALIDITY of the folder and the number of its messages, or the null pointer. -/
def imapSelect {σ : Type} (exec : Exec σ) (s : Sess σ) (folder : Text) (needWrite : Bool) : Res (Option (Text × Nat) × Sess σ) :=
  let cached := s.sel.filter fun x => x.name == folder && (!needWrite || x.writable)
  match cached with
  | some x => .ok (some (x.uidvalidity, x.exists_), s)
  | none => do
    let (r, c) ← exec s.conn [.atom (if needWrite then bs "SELECT" else bs "EXAMINE"), .string folder]
    let s := { s with conn := c }
    match r with
    | none => .ok (none, s)
    | some ls => do
      let st ← imapStatus r
      if st ≠ bs "OK" then .ok (none, s)
      else
        match ls.dropLast.foldl selectLine (none, 0) with
        | (none, _) => .ok (none, s)
        | (some v, n) => .ok (some (v, n), { s with sel := some ⟨folder, v, needWrite, n⟩ })

/-- `add_imap_message_to_list` (imapinterface.c:51-66). -/
def pseudopath (uidvalidity uid folder : Text) : Text := uidvalidity ++ bs ":" ++ cstr uid ++ bs ":" ++ folder

/-- The tests for a FETCH response (imapinterface.c:104-111, 215-222): its attributes, or `none` for other lines. -/
def fetchAttrs (l : ImapLine) : Res (Option (List ImapTok)) :=
  match l.items with
  | [] => .ok none
  | .atom _ :: rest =>
    match rest with
    | [] => .error .outOfBounds
    | t :: rest =>
      if t.isWord (bs "FETCH") then
        match rest with
        | [] => .error .outOfBounds
        | .list l :: _ => .ok (some l)
        | _ => .ok none
      else .ok none
  | _ => .ok none

/-- Whether a list of flags has `\Deleted` (imapinterface.c:123-128). -/
def hasDeleted (l : List ImapTok) : Bool := l.any (·.isWord (bs "\\Deleted"))

/-- The loop over the attributes in `scan_folder` (imapinterface.c:112-130): the UID, and whether the message is deleted. -/
def listAttrs : List ImapTok → Option Text × Bool → Option Text × Bool
  | t :: v :: rest, acc =>
    if t.isWord (bs "UID") then
      match v with
      | .atom u => listAttrs rest (some u, acc.2)
      | _ => listAttrs rest acc
    else if t.isWord (bs "FLAGS") then
      match v with
      | .list fl => listAttrs rest (acc.1, acc.2 || hasDeleted fl)
      | _ => listAttrs rest acc
    else listAttrs (v :: rest) acc
  | _, acc => acc

/-- One line of the answer in `scan_folder` (imapinterface.c:103-134): the pseudopath it adds. -/
def listLine (uidvalidity folder : Text) (l : ImapLine) : Res (Option Text) := do
  match ← fetchAttrs l with
  | none => .ok none
  | some at_ =>
    match listAttrs at_ (none, false) with
    | (some u, false) => .ok (some (pseudopath uidvalidity u folder))
    | _ => .ok none

/-- `scan_folder` (imapinterface.c:68-136): the messages of a folder. -/
def scanFolder {σ : Type} (exec : Exec σ) (s : Sess σ) (folder : Text) : Res (List Text × Sess σ) := do
  let (r, s) ← imapSelect exec s folder false
  match r with
  | none => .ok ([], s)
  | some (v, n) =>
    if n < 1 then .ok ([], s)
    else do
      let (r, c) ← exec s.conn [.atom (bs "UID"), .atom (bs "FETCH"), .atom (bs "1:*"), .atom (bs "FLAGS")]
      let s := { s with conn := c }
      match r with
      | none => .ok ([], s)
      | some ls => do
        let st ← imapStatus r
        if st ≠ bs "OK" then .ok ([], s)
        else do
          let ps ← ls.dropLast.mapM (listLine v folder)
          .ok (ps.filterMap id, s)

/-- The loop of `build_imap_message_list` (imapinterface.c:149-153). -/
def scanFolders {σ : Type} (exec : Exec σ) (skip : Text → Bool) : Sess σ → List Text → Res (List Text × Sess σ)
  | s, [] => .ok ([], s)
  | s, f :: fs =>
    if skip f then scanFolders exec skip s fs
    else do
      let (l, s) ← scanFolder exec s f
      let (ls, s) ← scanFolders exec skip s fs
      .ok (l ++ ls, s)

/-- `build_imap_message_list` (imapinterface.c:138-154). -/
def buildImapMessageList {σ : Type} (exec : Exec σ) (skip : Text → Bool) (s : Sess σ) (folders : Text) : Res (List Text × Sess σ) := do
  let fs ← splitOnColons folders
  scanFolders exec skip s fs

/-- The parts of a pseudopath (imapinterface.c:168-179, 327-338): UIDVALIDITY, UID and folder. -/
def splitPseudopath (p : Text) : Option (Text × Text × Text) :=
  match strchr 58 p with
  | none => none
  | some (v, r) =>
    match strchr 58 r with
    | none => none
    | some (u, f) => some (v, u, f)

/-- The loop over the attributes in `imap_fetch_message_raw` (imapinterface.c:223-237): the UID and the message. -/
def rawAttrs : List ImapTok → Option Text × Option Text → Option Text × Option Text
  | t :: v :: rest, acc =>
    if t.isWord (bs "UID") then
      match v with
      | .atom u => rawAttrs rest (some u, acc.2)
      | _ => rawAttrs rest acc
    else if t.isWord (bs "BODY[]") then
      match v with
      | .string b => rawAttrs rest (acc.1, some b)
      | _ => rawAttrs rest acc
    else rawAttrs (v :: rest) acc
  | _, acc => acc

/-- The loop over the lines in `imap_fetch_message_raw` (imapinterface.c:214-247). -/
def findRaw (uid : Text) : List ImapLine → Res (Option Text)
  | [] => .ok none
  | l :: ls => do
    match ← fetchAttrs l with
    | none => findRaw uid ls
    | some at_ =>
      match rawAttrs at_ (none, none) with
      | (some u, some b) => if u = uid then .ok (some b) else findRaw uid ls
      | _ => findRaw uid ls

/-- `imap_fetch_message_raw` (imapinterface.c:156-248): what the callback gets, if it is called. -/
def fetchRaw {σ : Type} (exec : Exec σ) (s : Sess σ) (path : Text) : Res (Option Text × Sess σ) :=
  match splitPseudopath path with
  | none => .ok (none, s)
  | some (v, u, f) => do
    let (r, s) ← imapSelect exec s f false
    match r with
    | none => .ok (none, s)
    | some (v', _) =>
      if v' ≠ v then .ok (none, s)
      else do
        let (r, c) ← exec s.conn [.atom (bs "UID"), .atom (bs "FETCH"), .atom u, .atom (bs "BODY.PEEK[]")]
        let s := { s with conn := c }
        match r with
        | none => .ok (none, s)
        | some ls => do
          let st ← imapStatus r
          if st ≠ bs "OK" then .ok (none, s)
          else do
            let b ← findRaw u ls.dropLast
            .ok (b, s)

/-- `make_rfc822_from_imap` (imapinterface.c:266-274) up to the parser: the bytes it gets.  If the message was not fetched, `s.r`
has never been set and is returned. -/
def rfc822FromImap {σ : Type} (exec : Exec σ) (s : Sess σ) (path : Text) : Res (Text × Sess σ) := do
  let (b, s) ← fetchRaw exec s path
  match b with
  | some b => .ok (b, s)
  | none => .error .uninitialised

/-- `imap_clear_folder` (imapinterface.c:276-301); the results of the two commands are not looked at. -/
def clearFolder {σ : Type} (exec : Exec σ) (s : Sess σ) (folder : Text) : Res (Sess σ) := do
  let (r, s) ← imapSelect exec s folder true
  match r with
  | none => .ok s
  | some _ => do
    let (_, c) ← exec s.conn [.atom (bs "STORE"), .atom (bs "1:*"), .atom (bs "+FLAGS"), .atom (bs "\\Deleted")]
    let (_, c) ← exec c [.atom (bs "EXPUNGE")]
    .ok { s with conn := c }

/-- A command that is repeated after the folder has been created if the server says so; the status is looked at in any case
(imapinterface.c:303-317, 358-371, 408-421). -/
def tryCreate {σ : Type} (exec : Exec σ) (s : Sess σ) (cmd : List ImapTok) (folder : Text) : Res (Sess σ) := do
  let (r, c) ← exec s.conn cmd
  if ← isTrycreate r then do
    let (_, c) ← exec c [.atom (bs "CREATE"), .string folder]
    let (r, c) ← exec c cmd
    let _ ← imapStatus r
    .ok { s with conn := c }
  else do
    let _ ← imapStatus r
    .ok { s with conn := c }

/-- `imap_copy_message` (imapinterface.c:319-372). -/
def copyMessage {σ : Type} (exec : Exec σ) (s : Sess σ) (path to_ : Text) : Res (Sess σ) :=
  match splitPseudopath path with
  | none => .ok s
  | some (v, u, f) => do
    let (r, s) ← imapSelect exec s f false
    match r with
    | none => .ok s
    | some (v', _) =>
      if v' ≠ v then .ok s
      else tryCreate exec s [.atom (bs "UID"), .atom (bs "COPY"), .atom u, .string to_] to_

/-- The flags of a message in `get_flags_from_file` (search.c). -/
structure MsgFlags where
  seen : Bool := false
  answered : Bool := false
  flagged : Bool := false
  deriving DecidableEq

/-- The list of flags (imapinterface.c:384-399). -/
def flagToks (fl : MsgFlags) : List ImapTok :=
  (if fl.seen then [.atom (bs "\\Seen")] else []) ++ (if fl.answered then [.atom (bs "\\Answered")] else []) ++
    (if fl.flagged then [.atom (bs "\\Flagged")] else [])

/-- `imap_append_new_message` (imapinterface.c:374-422). -/
def appendImap {σ : Type} (exec : Exec σ) (s : Sess σ) (folder data : Text) (fl : MsgFlags) : Res (Sess σ) := do
  let (r, s) ← imapSelect exec s folder true
  match r with
  | none => .ok s
  | some _ => tryCreate exec s [.atom (bs "APPEND"), .string folder, .list (flagToks fl), .string data] folder

/-- A hit as the code of `do_search` for results in an IMAP folder sees it (search.c:1290-1326). -/
inductive ImapHit where
  /-- a message in a file of its own; `none` if the file cannot be read -/
  | file (data : Option Text) (fl : MsgFlags)
  /-- a message on the server -/
  | imap (path : Text)
  /-- a message in an mbox: `start` and the length, see `get_validated_mbox_msg` (search.c:676-713) -/
  | mbox (start : Option Text) (len : Nat) (fl : MsgFlags)

/-- One hit (search.c:1294-1326).  For a message of an mbox that has changed, `start` is null and `memcpy` reads `len` bytes from it
(imap.c:776). -/
def outputHit {σ : Type} (exec : Exec σ) (out : Text) (s : Sess σ) : ImapHit → Res (Sess σ)
  | .file none _ => .ok s
  | .file (some d) fl => appendImap exec s out d fl
  | .imap p => copyMessage exec s p out
  | .mbox (some d) _ fl => appendImap exec s out d fl
  | .mbox none len fl => do
    let (r, s) ← imapSelect exec s out true
    match r with
    | none => .ok s
    | some _ => if 0 < len then .error .outOfBounds else appendImap exec s out [] fl

/-- The loop over the hits (search.c:1290-1327). -/
def outputHits {σ : Type} (exec : Exec σ) (out : Text) : Sess σ → List ImapHit → Res (Sess σ)
  | s, [] => .ok s
  | s, h :: hs => do
    let s ← outputHit exec out s h
    outputHits exec out s hs

/-- The case `FT_IMAP` of `do_search` (search.c:1284-1329) with a connection. -/
def outputImap {σ : Type} (exec : Exec σ) (clear : Bool) (out : Text) (s : Sess σ) (hits : List ImapHit) : Res (Sess σ) := do
  let s ← if clear then clearFolder exec s out else .ok s
  outputHits exec out s hits

end Mairix
