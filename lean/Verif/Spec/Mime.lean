import Verif.Model.Mime
import Verif.Spec.Header
import Verif.Spec.Nvp

/-!
# The form of messages (specification): fields, transfer encodings, types, multiparts
-/

namespace Mairix.Spec

/-! ## Fields -/

/-- The text is a field of this name (which is given in small letters, with the colon), with this value. Letters of the name do not depend on case. -/
def FieldIs (name : Text) (field value : Text) : Prop := ∃ n, field = n ++ value ∧ lower n = name

/-- The text is a field of this name. -/
def HasName (name : Text) (field : Text) : Prop := ∃ v, FieldIs name field v

/-- The value of a field as it is kept: encoded words are replaced; a null that was encoded ends it. -/
def ValueMeans (value v : Text) : Prop := ∃ d, HeaderMeans value d ∧ v = d.takeWhile (· != 0)

/-- The first field of this name gives the value, if there is one. -/
def FirstField (name : Text) (fields : List Text) (o : Option Text) : Prop :=
  ((∀ f ∈ fields, ¬ HasName name f) ∧ o = none) ∨
  ∃ a f b v x, fields = a ++ f :: b ∧ (∀ g ∈ a, ¬ HasName name g) ∧ FieldIs name f v ∧ ValueMeans v x ∧ o = some x

/-- The values of all the fields of this name, in order. -/
inductive FieldValues (name : Text) : List Text → List Text → Prop
  | nil : FieldValues name [] []
  | skip {f fs vs} : ¬ HasName name f → FieldValues name fs vs → FieldValues name (f :: fs) vs
  | take {f v x fs vs} : FieldIs name f v → ValueMeans v x → FieldValues name fs vs → FieldValues name (f :: fs) (x :: vs)

/-- All fields of this name together give the value, joined by commas. -/
def JoinedFields (name : Text) (fields : List Text) (o : Option Text) : Prop :=
  ∃ vs, FieldValues name fields vs ∧ o = if vs = [] then none else some ((bs ", ").intercalate vs)

/-- A number in decimal digits, as written. -/
def DigitsOf (t : Text) (n : Nat) : Prop := t ≠ [] ∧ (∀ c ∈ t, isDigit c = true) ∧ n = t.foldl (fun n c => 10 * n + (c.toNat - 0x30)) 0

/-- The names of the months. -/
def months : List Text := ["jan", "feb", "mar", "apr", "may", "jun", "jul", "aug", "sep", "oct", "nov", "dec"].map bs

/-- The date in the value of a field (RFC 822, 5.1): perhaps the day of the week and a comma, the day of the month, the month, of whose name the first three letters count, the year, and something
that follows it: the time. Years below 70 are taken as 20xx, others below 1900 as they are. -/
def DateText (t : Text) (day month year : Nat) : Prop :=
  ∃ wday ws0 d ws1 m ml ws2 y ws3 rest,
    t = wday ++ ws0 ++ d ++ ws1 ++ m ++ ml ++ ws2 ++ y ++ ws3 ++ rest ∧
    (wday = [] ∧ 0x2c ∉ t ∨ ∃ w, wday = w ++ bs "," ∧ 0x2c ∉ w) ∧
    (∀ c ∈ ws0 ++ ws1 ++ ws2 ++ ws3, isSpace c = true) ∧
    DigitsOf d day ∧ day ≤ 31 ∧ months[month]? = some (lower m) ∧ (∀ c ∈ ml, isSpace c = false) ∧ ws2 ≠ [] ∧
    DigitsOf y year ∧ year < 2147483648 ∧ (∃ c r, rest = c :: r ∧ isSpace c = false ∧ (ws3 = [] → isDigit c = false))

/-- Years since 1900. -/
def sinceYear (year : Nat) : Nat := if year < 70 then year + 100 else if year < 1900 then year else year - 1900

/-- What date a text gives: that in it, or -1 if there is none. (A text with ten digits in a row and no date has no meaning here.) -/
def DateMeans (mktime : Nat → Nat → Nat → Int) (x : Text) (date : Int) : Prop :=
  (∃ day month year, DateText x day month year ∧ date = mktime day month (sinceYear year)) ∨
  ((¬ ∃ day month year, DateText x day month year) ∧ (∀ ds, ds <:+: x → (∀ c ∈ ds, isDigit c = true) → ds.length < 10) ∧ date = -1)

/-- The first field `Date` gives the date; 0 if there is none. (If it is the very beginning of 1970 it must be the only one, as that counts as no date.) -/
def DateField (mktime : Nat → Nat → Nat → Int) (fields : List Text) (date : Int) : Prop :=
  ((∀ f ∈ fields, ¬ HasName (bs "date:") f) ∧ date = 0) ∨
  ∃ a f b v x, fields = a ++ f :: b ∧ (∀ g ∈ a, ¬ HasName (bs "date:") g) ∧ FieldIs (bs "date:") f v ∧ ValueMeans v x ∧ DateMeans mktime x date ∧ (date ≠ 0 ∨ ∀ g ∈ b, ¬ HasName (bs "date:") g)

/-- The letter is in a field `Status` or `X-Status`. -/
def StatusLetter (c : UInt8) (fields : List Text) : Prop := ∃ f ∈ fields, ∃ v, (FieldIs (bs "status:") f v ∨ FieldIs (bs "x-status:") f v) ∧ c ∈ v

/-- The headers that are kept of a message. -/
structure HeadersMean (mktime : Nat → Nat → Nat → Int) (fields : List Text) (h : Headers) : Prop where
  to : JoinedFields (bs "to:") fields h.to
  cc : JoinedFields (bs "cc:") fields h.cc
  «from» : FirstField (bs "from:") fields h.from
  subject : FirstField (bs "subject:") fields h.subject
  messageId : FirstField (bs "message-id:") fields h.messageId
  inReplyTo : FirstField (bs "in-reply-to:") fields h.inReplyTo
  references : FirstField (bs "references:") fields h.references
  date : DateField mktime fields h.date
  seen : h.seen = true ↔ StatusLetter 0x52 fields
  replied : h.replied = true ↔ StatusLetter 0x41 fields
  flagged : h.flagged = true ↔ StatusLetter 0x46 fields

/-- There is no field of this name, or only one, of the form with parameters. -/
def ParamField (name : Text) (fields : List Text) (o : Option Nvp) : Prop :=
  ((∀ f ∈ fields, ¬ HasName name f) ∧ o = none) ∨
  ∃ a f b v es, fields = a ++ f :: b ∧ (∀ g ∈ a ++ b, ¬ HasName name g) ∧ FieldIs name f v ∧ Params v [] es ∧ o = some es

/-! ## Bodies -/

/-- `Decodes cte t d`: the body `t` with this field `Content-Transfer-Encoding`, or none, stands for the data `d`. -/
inductive Decodes : Option Nvp → Text → Text → Prop
  | none {t} : Decodes none t t
  | same {w ps t} : lower w ∈ [bs "7bit", bs "8bit", bs "binary"] → Decodes (some (.name w :: ps)) t t
  | base64 {w ps t d} : lower w = bs "base64" → B64Form t d → Decodes (some (.name w :: ps)) t d
  | quoted {w ps t d} : lower w = bs "quoted-printable" → QpForm t d → Decodes (some (.name w :: ps)) t d

/-- Type and subtype. -/
def TypeIs (ct : Nvp) (major minor : Text) : Prop := ∃ m s ps, ct = .majorMinor m s :: ps ∧ lower m = major ∧ lower s = minor

/-- The type, whatever the subtype. -/
def MajorIs (ct : Nvp) (major : Text) : Prop := (∃ m s ps, ct = .majorMinor m s :: ps ∧ lower m = major) ∨ (∃ m ps, ct = .name m :: ps ∧ lower m = major)

/-- The first parameter of this name, letters compared without regard to case, has this value. -/
def ParamIs (n : Text) (es : Nvp) (v : Text) : Prop := ∃ a m b, es = a ++ .nameValue m v :: b ∧ lower m = n ∧ ∀ m' v', .nameValue m' v' ∈ a → lower m' ≠ n

/-- The parameter is not there. -/
def ParamNot (n : Text) (es : Nvp) : Prop := ∀ m v, .nameValue m v ∈ es → lower m ≠ n

/-- The file name of a part: only if its disposition is `attachment`; from the parameter `filename` there, or else from `name` (in small letters) of its type. -/
def FileNameIs (ct : Nvp) (cd : Option Nvp) (o : Option Text) : Prop :=
  (o = none ∧ ∀ w ps, cd = some (.name w :: ps) → lower w ≠ bs "attachment") ∨
  ∃ w ps, cd = some (.name w :: ps) ∧ lower w = bs "attachment" ∧
    ((∃ f, ParamIs (bs "filename") ps f ∧ o = some f) ∨
     (ParamNot (bs "filename") ps ∧ ((∃ a f b, ct = a ++ .nameValue (bs "name") f :: b ∧ (∀ v, .nameValue (bs "name") v ∉ a) ∧ o = some f) ∨ ((∀ v, .nameValue (bs "name") v ∉ ct) ∧ o = none))))

/-! ## Multiparts (RFC 2046, 5.1.1) -/

/-- A line that is no delimiter for the boundary: it is not `--` and the boundary, perhaps with a carriage return, and does not begin with `--`, the boundary and `--`. (If it has something like a boundary in it, there must be no null.) -/
def NoDelimiter (b l : Text) : Prop :=
  l ≠ bs "--" ++ b ∧ l ≠ bs "--" ++ b ++ bs "\r" ∧ ¬ bs "--" ++ b ++ bs "--" <+: l ∧ (bs "--" ++ b <:+: l → 0 ∉ l)

/-- Whole lines without delimiters. -/
def Enclosed (b p : Text) : Prop := ∃ ls : List Text, p = (ls.map (· ++ bs "\n")).flatten ∧ ∀ l ∈ ls, 0x0a ∉ l ∧ NoDelimiter b l

/-- The parts up to the end: each ends before a delimiter line, the last before the end delimiter, which anything may follow. (The end of the line before the delimiter is taken as belonging to the part.) -/
inductive PartsText (b : Text) : Text → List Text → Prop
  | last {p rest} : Enclosed b p → PartsText b (p ++ bs "--" ++ b ++ bs "--" ++ rest) [p]
  | more {p eol t ps} : Enclosed b p → eol = bs "\n" ∨ eol = bs "\r\n" → PartsText b t ps → PartsText b (p ++ bs "--" ++ b ++ eol ++ t) (p :: ps)

/-- `MultiText b t ps`: the body `t` consists of a preamble and the parts `ps`, with this boundary. -/
def MultiText (b t : Text) (ps : List Text) : Prop :=
  0x0a ∉ b ∧ 0 ∉ b ∧ ∃ pre eol rest, Enclosed b pre ∧ (eol = bs "\n" ∨ eol = bs "\r\n") ∧ PartsText b rest ps ∧ t = pre ++ bs "--" ++ b ++ eol ++ rest

/-! ## Messages -/

/-- What has a meaning. -/
inductive MimeText
  /-- a message and what is kept of it -/
  | message (t : Text) (r : Rfc822)
  /-- a part with its header, and the attachments it makes -/
  | entity (t : Text) (a : Attachments)
  /-- a body with its type, encoding and disposition -/
  | body (ct cte cd : Option Nvp) (t : Text) (a : Attachments)
  /-- parts -/
  | parts (ts : List Text) (a : Attachments)

/-- A list of attachments after another. -/
def attsAppend : Attachments → Attachments → Attachments
  | .nil, b => b
  | .cons x f rest, b => .cons x f (attsAppend rest b)

/-- The header: lines, a blank line, the body, and the fields in it. -/
def HeaderOf (t : Text) (fields : List Text) (body : Text) : Prop :=
  ∃ lines blank, t = headerText lines blank body ∧ (∀ l ∈ lines, HeaderLine l) ∧ (∀ c ∈ blank, isSpace c = true ∧ c ≠ 0x0a) ∧ HeaderOk lines ∧ Unfolded lines fields

/-- The meaning of messages and their parts. -/
inductive MimeMeans (mktime : Nat → Nat → Nat → Int) : MimeText → Prop
  | message {t fields body h ct cte cd a} : HeaderOf t fields body → HeadersMean mktime fields h → ParamField (bs "content-type:") fields ct → ParamField (bs "content-transfer-encoding:") fields cte →
      ParamField (bs "content-disposition:") fields cd → MimeMeans mktime (.body ct cte cd body a) → MimeMeans mktime (.message t (.mk h a))
  | entity {t fields body ct cte cd a} : HeaderOf t fields body → ParamField (bs "content-type:") fields ct → ParamField (bs "content-transfer-encoding:") fields cte →
      ParamField (bs "content-disposition:") fields cd → MimeMeans mktime (.body ct cte cd body a) → MimeMeans mktime (.entity t a)
  /-- no type: plain text -/
  | untyped {cte cd t d} : Decodes cte t d → MimeMeans mktime (.body none cte cd t (.cons (.plain (d.takeWhile (· != 0))) none .nil))
  | plain {ct cte cd t d f} : Decodes cte t d → TypeIs ct (bs "text") (bs "plain") → FileNameIs ct cd f → MimeMeans mktime (.body (some ct) cte cd t (.cons (.plain (d.takeWhile (· != 0))) f .nil))
  | html {ct cte cd t d f} : Decodes cte t d → TypeIs ct (bs "text") (bs "html") → FileNameIs ct cd f → MimeMeans mktime (.body (some ct) cte cd t (.cons (.html (d.takeWhile (· != 0))) f .nil))
  | rfc822 {ct cte cd t d f r} : Decodes cte t d → TypeIs ct (bs "message") (bs "rfc822") → FileNameIs ct cd f → MimeMeans mktime (.message d r) → MimeMeans mktime (.body (some ct) cte cd t (.cons (.message r) f .nil))
  | multi {ct cte cd t d b ps a} : Decodes cte t d → MajorIs ct (bs "multipart") → ParamIs (bs "boundary") ct b → MultiText b d ps → MimeMeans mktime (.parts ps a) → MimeMeans mktime (.body (some ct) cte cd t a)
  /-- any other type: nothing of the contents is kept -/
  | other {ct cte cd t d f} : Decodes cte t d → ¬ TypeIs ct (bs "text") (bs "plain") → ¬ TypeIs ct (bs "text") (bs "html") → ¬ TypeIs ct (bs "message") (bs "rfc822") → ¬ MajorIs ct (bs "multipart") →
      FileNameIs ct cd f → MimeMeans mktime (.body (some ct) cte cd t (.cons .other f .nil))
  | nil : MimeMeans mktime (.parts [] .nil)
  | cons {t a ts as} : MimeMeans mktime (.entity t a) → MimeMeans mktime (.parts ts as) → MimeMeans mktime (.parts (t :: ts) (attsAppend a as))

end Mairix.Spec
