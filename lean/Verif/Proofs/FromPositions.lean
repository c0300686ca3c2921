import Verif.Proofs.Positions

/-!
# The language of From lines, by groups of characters
-/

namespace Mairix
open RE

/-- The groups of characters of the classes in the language of From lines. -/
structure FromMasks where
  (digit lower upper white plusminus colon email domain dquote quoted ats lsq rsq dot lt gt comma r e m o t f lf cr : Nat)

namespace RB

/-- Like `RE.plus`. -/
def plus (a : RB) : RB := seq a (star a)
/-- Like `RE.opt`. -/
def opt (a : RB) : RB := alt eps a
/-- Like `RE.seqs`. -/
def seqs : List RB → RB
  | [] => eps
  | [a] => a
  | a :: l => seq a (seqs l)
/-- Like `RE.alts`. -/
def alts : List RB → RB
  | [] => none
  | [a] => a
  | a :: l => alt a (alts l)

end RB

namespace FromMasks
open RB
variable (k : FromMasks)

/-- `From.email` -/
def bEmail : RB := .seqs [
  .star (.alt (.cls k.email) (.seqs [.cls k.ats, .star (.cls k.domain), .cls k.colon])),
  .alt (.cls k.email) (.seqs [.cls k.dquote, .star (.alts [.cls k.email, .cls k.white, .cls k.quoted]), .cls k.dquote]),
  .star (.alt (.cls k.email) (.seqs [.cls k.dquote, .star (.alts [.cls k.email, .cls k.white, .cls k.quoted]), .cls k.dquote])),
  .opt (.seq (.cls k.ats) (.alt
    (.seqs [.cls k.lsq, .star (.alt (.cls k.digit) (.cls k.dot)), .cls k.rsq])
    (.seq (.cls k.domain) (.plus (.cls k.domain)))))]

/-- `From.angledEmail` -/
def bAngled : RB := .seqs [.cls k.lt, k.bEmail, .cls k.gt]

/-- `From.zone` -/
def bZone : RB := .alt (.cls k.upper) (.seq (.alt (.cls k.upper) (.cls k.plusminus)) (.plus (.alts [.cls k.upper, .cls k.lower, .cls k.digit])))

/-- `From.time` -/
def bTime : RB := .alt
  (.seqs [.cls k.digit, .cls k.digit, .cls k.colon, .cls k.digit, .cls k.digit, .cls k.colon, .cls k.digit, .cls k.digit, .cls k.white])
  (.seqs [.cls k.digit, .cls k.digit, .cls k.colon, .cls k.digit, .cls k.digit, .cls k.white])

/-- `From.day` -/
def bDay : RB := .alt (.seq (.cls k.digit) (.cls k.white)) (.seqs [.cls k.digit, .cls k.digit, .cls k.white])

/-- `From.name3` -/
def bName3 : RB := .seqs [.cls k.upper, .cls k.lower, .cls k.lower]

/-- `From.year4` -/
def bYear4 : RB := .seqs [.cls k.digit, .cls k.digit, .cls k.digit, .cls k.digit]

/-- `From.date` -/
def bDate : RB := .seqs [
  .plus (.cls k.white), k.bName3, .cls k.white,
  .star (.cls k.white), k.bName3, .cls k.white,
  .star (.cls k.white), k.bDay,
  .star (.cls k.white), k.bTime,
  .star (.cls k.white),
  .alt
    (.seqs [.alts [.eps, .seq k.bZone (.cls k.white), .seqs [k.bZone, .cls k.white, .star (.cls k.white), k.bZone, .cls k.white]], .star (.cls k.white), k.bYear4, .star (.cls k.white)])
    (.seqs [k.bYear4, .star (.cls k.white), .alt k.bZone (.seqs [k.bZone, .cls k.white, .star (.cls k.white), k.bZone]), .star (.cls k.white)])]

/-- `From.dateOld` -/
def bDateOld : RB := .seqs [
  .plus (.cls k.white), k.bName3, .cls k.comma, .cls k.white,
  .star (.cls k.white), k.bDay,
  .star (.cls k.white), k.bName3, .cls k.white,
  .alt k.bYear4 (.seq (.cls k.digit) (.cls k.digit)),
  .star (.cls k.white), k.bTime,
  .star (.cls k.white), .alts [.eps, k.bZone, .seqs [k.bZone, .cls k.white, .star (.cls k.white), k.bZone]], .star (.cls k.white)]

/-- `From.remote` -/
def bRemote : RB := .seqs [.plus (.cls k.white), .cls k.r, .cls k.e, .cls k.m, .cls k.o, .cls k.t, .cls k.e, .cls k.white,
  .cls k.f, .cls k.r, .cls k.o, .cls k.m, .cls k.white, .star (.cls k.domain)]

/-- `From.line` -/
def bLine : RB := .seqs [
  .star (.cls k.white),
  .alts [k.bEmail, k.bAngled, .cls k.plusminus, .eps],
  .alts [
    .seq (.alt k.bDate k.bDateOld) (.alt .eps (.seq k.bRemote (.cls k.lf))),
    .seqs [k.bDate, .cls k.cr, .cls k.lf]]]

/-- The groups stand for the classes. -/
structure Fit (γ : UInt8 → Nat) : Prop where
  digit : From.DIGIT = (RB.cls k.digit).toRE γ
  lower : From.LOWER = (RB.cls k.lower).toRE γ
  upper : From.UPPER = (RB.cls k.upper).toRE γ
  white : From.WHITE = (RB.cls k.white).toRE γ
  plusminus : From.PLUSMINUS = (RB.cls k.plusminus).toRE γ
  colon : From.COLON = (RB.cls k.colon).toRE γ
  email : From.EMAIL = (RB.cls k.email).toRE γ
  domain : From.DOMAIN = (RB.cls k.domain).toRE γ
  dquote : From.DQUOTE = (RB.cls k.dquote).toRE γ
  quoted : oneOf "@:<>" = (RB.cls k.quoted).toRE γ
  ats : oneOf "@" = (RB.cls k.ats).toRE γ
  lsq : oneOf "[" = (RB.cls k.lsq).toRE γ
  rsq : oneOf "]" = (RB.cls k.rsq).toRE γ
  dot : oneOf "." = (RB.cls k.dot).toRE γ
  lt : oneOf "<" = (RB.cls k.lt).toRE γ
  gt : oneOf ">" = (RB.cls k.gt).toRE γ
  comma : oneOf "," = (RB.cls k.comma).toRE γ
  r : oneOf "r" = (RB.cls k.r).toRE γ
  e : oneOf "e" = (RB.cls k.e).toRE γ
  m : oneOf "m" = (RB.cls k.m).toRE γ
  o : oneOf "o" = (RB.cls k.o).toRE γ
  t : oneOf "t" = (RB.cls k.t).toRE γ
  f : oneOf "f" = (RB.cls k.f).toRE γ
  lf : chr 0x0a = (RB.cls k.lf).toRE γ
  cr : chr 0x0d = (RB.cls k.cr).toRE γ

variable {k} {γ : UInt8 → Nat} (h : Fit k γ)
include h

theorem Fit.line : From.line = k.bLine.toRE γ := by
  simp only [From.line, From.remote, From.dateOld, From.date, From.year4, From.name3, From.day, From.time, From.zone, From.angledEmail, From.email, From.QUOTED,
    RE.seqs, RE.alts, RE.plus, RE.opt, h.digit, h.lower, h.upper, h.white, h.plusminus, h.colon, h.email, h.domain, h.dquote, h.quoted, h.ats, h.lsq, h.rsq, h.dot, h.lt, h.gt,
    h.comma, h.r, h.e, h.m, h.o, h.t, h.f, h.lf, h.cr]
  simp only [bLine, bRemote, bDateOld, bDate, bYear4, bName3, bDay, bTime, bZone, bAngled, bEmail, RB.seqs, RB.alts, RB.plus, RB.opt, RB.toRE]

end FromMasks
end Mairix
