import Verif.Spec.Mail
import Verif.Spec.BoxWhole
import Verif.Spec.Dates
import Verif.Model.Terminal

/-!
# Results on the terminal (specification)
-/

namespace Mairix.Spec

/-- A result: a file, or the bytes of an mbox from `first` on and before `stop`. -/
inductive Hit where
  | file (path : Text)
  | box (path : Text) (first stop : Nat)
  deriving DecidableEq, Repr

/-- How it is shown. -/
def Hit.line : Hit → Text
  | .file p => p ++ bs "\n"
  | .box p a b => bs "mbox:" ++ (p ++ (bs " [" ++ (digits a ++ (bs "," ++ (digits b ++ bs ")\n")))))

/-- Message number `i` of the database is this result. -/
def HitIs (db : ReadDb) (i : Nat) : Hit → Prop
  | .file p => ∃ k, IsAt db i ⟨k, p⟩
  | .box p a b => ∃ n, b = a + n ∧ IsInBox db i p (a, n)

/-- The names of the days of the week, and the months. -/
def weekdays : List Text := [bs "Mon", bs "Tue", bs "Wed", bs "Thu", bs "Fri", bs "Sat", bs "Sun"]
def shortMonths : List Text := [bs "Jan", bs "Feb", bs "Mar", bs "Apr", bs "May", bs "Jun", bs "Jul", bs "Aug", bs "Sep", bs "Oct", bs "Nov", bs "Dec"]

/-- The text shows the day, with its day of the week (1 January of the year 1 was a Monday). -/
def ShowsDay (d : Day) (t : Text) : Prop :=
  ∃ w m, ∃ n : Nat, weekdays[(dayNumber d % 7).toNat]? = some w ∧ shortMonths[d.month - 1]? = some m ∧ d.year = (n : Int) ∧
    t = w ++ (bs ", " ++ ((if d.day < 10 then bs "0" ++ digits d.day else digits d.day) ++ (bs " " ++ (m ++ (bs " " ++ digits n)))))

/-- `gmtime` knows the calendar. -/
def Greenwich (gmtime : Int → GmDate) : Prop :=
  ∀ d : Day, d.Exists → ∀ s : Int, 0 ≤ s → s < 86400 →
    gmtime ((dayNumber d - 719162) * 86400 + s) = ⟨((dayNumber d + 1) % 7).toNat, d.day, d.month - 1, d.year - 1900⟩

/-- On this day the standard time is `o` seconds ahead of that of Greenwich. -/
def AheadBy (clk : Clock) (d : Day) (o : Int) : Prop := storedDate clk d = (dayNumber d - 719162) * 86400 - o

/-- The excerpt of a message with its header fields, those that there are in this order, and the day shown last. -/
def ExcerptOf (h : Headers) (day t : Text) : Prop :=
  let field (name : String) (v : Option Text) : List Text := (v.map fun v => bs name ++ v).toList
  t = ((field "  To:         " h.to ++ field "  Cc:         " h.cc ++ field "  From:       " h.from ++ field "  Subject:    " h.subject ++
    field "  Message-ID: " h.messageId ++ field "  In-Reply-To:" h.inReplyTo ++ [bs "  Date:        " ++ day]).flatMap (· ++ bs "\n"))

end Mairix.Spec
