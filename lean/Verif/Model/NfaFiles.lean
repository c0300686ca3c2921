import Verif.Model.Nfa

/-!
# The input files for dfasyn: fromcheck.nfa, datescan.nfa, nvp.nfa

The declarations in the order of the files. The classes are written as scan.l reads them: `\.` between brackets is two characters, as only some letters may follow
a backslash there (scan.l:93-106).
-/

namespace Mairix

/-- A name as a stimulus. -/
macro:max "wd!" s:str : term => `(Stim.word (nm! $s))

/-- `<block:in->out>` -/
macro:max "inl!" s:str : term => `(Stim.inline (nm! $s) (nm! "in") (nm! "out"))

/-- `... -> states` -/
def goes (seq : List (List Stim)) (l : List Name) : TransDecl := ⟨seq, .to l⟩

/-- `... = tags` -/
def gives (seq : List (List Stim)) (l : List Text) : TransDecl := ⟨seq, .tags l⟩

/-! ## fromcheck.nfa -/

/-- The classes of fromcheck.nfa. -/
def fromcheckClasses : List ClassExpr := [
  .simple ⟨[.single 10], false⟩,
  .simple ⟨[.single 13], false⟩,
  .simple ⟨[.range 48 57], false⟩,
  .simple ⟨[.single 46], false⟩,
  .simple ⟨[.single 44], false⟩,
  .simple ⟨[.single 64], false⟩,
  .simple ⟨[.range 97 122], false⟩,
  .simple ⟨[.range 65 90], false⟩,
  .simple ⟨[.single 58], false⟩,
  .simple ⟨[.single 32, .single 9], false⟩,
  .simple ⟨[.single 43, .single 45], false⟩,
  .simple ⟨[.single 46, .single 33, .single 35, .single 36, .single 37, .single 38, .single 39, .single 42, .single 47, .single 61, .single 63, .single 94, .single 95, .single 96, .single 123, .single 124, .single 125, .single 126], false⟩,
  .simple ⟨[.single 60], false⟩,
  .simple ⟨[.single 62], false⟩,
  .simple ⟨[.single 45, .single 95, .single 46], false⟩,
  .simple ⟨[.single 34], false⟩,
  .simple ⟨[.single 64, .single 58, .single 60, .single 62], false⟩,
  .simple ⟨[.single 91], false⟩,
  .simple ⟨[.single 93], false⟩,
  .simple ⟨[.single 114], false⟩,
  .simple ⟨[.single 101], false⟩,
  .simple ⟨[.single 109], false⟩,
  .simple ⟨[.single 111], false⟩,
  .simple ⟨[.single 116], false⟩,
  .simple ⟨[.single 102], false⟩]

/-- fromcheck.nfa:40-68 -/
def fromcheckAbbrevs : List Decl := [
  .abbreviation (nm! "LF") [.cls 0],
  .abbreviation (nm! "CR") [.cls 1],
  .abbreviation (nm! "DIGIT") [.cls 2],
  .abbreviation (nm! "PERIOD") [.cls 3],
  .abbreviation (nm! "COMMA") [.cls 4],
  .abbreviation (nm! "AT") [.cls 5],
  .abbreviation (nm! "LOWER") [.cls 6],
  .abbreviation (nm! "UPPER") [.cls 7],
  .abbreviation (nm! "COLON") [.cls 8],
  .abbreviation (nm! "WHITE") [.cls 9],
  .abbreviation (nm! "PLUSMINUS") [.cls 10],
  .abbreviation (nm! "OTHER_EMAIL") [.cls 11],
  .abbreviation (nm! "LT") [.cls 12],
  .abbreviation (nm! "GT") [.cls 13],
  .abbreviation (nm! "EMAIL") [wd! "LOWER", wd! "UPPER", wd! "DIGIT", wd! "PLUSMINUS", wd! "OTHER_EMAIL"],
  .abbreviation (nm! "OTHER_DOMAIN") [.cls 14],
  .abbreviation (nm! "DOMAIN") [wd! "LOWER", wd! "UPPER", wd! "DIGIT", wd! "OTHER_DOMAIN"],
  .abbreviation (nm! "DQUOTE") [.cls 15],
  .abbreviation (nm! "OTHER_QUOTED") [.cls 16],
  .abbreviation (nm! "LEFTSQUARE") [.cls 17],
  .abbreviation (nm! "RIGHTSQUARE") [.cls 18],
  .abbreviation (nm! "R") [.cls 19],
  .abbreviation (nm! "E") [.cls 20],
  .abbreviation (nm! "M") [.cls 21],
  .abbreviation (nm! "O") [.cls 22],
  .abbreviation (nm! "T") [.cls 23],
  .abbreviation (nm! "F") [.cls 24]]

/-- fromcheck.nfa:70-103 -/
def fromcheckEmail : Decl := .block (nm! "email") [] [
    ⟨nm! "in", none, [
      goes [[wd! "EMAIL"]] [nm! "in", nm! "before_at"],
      goes [[wd! "DQUOTE"]] [nm! "quoted_before_at"],
      goes [[wd! "AT"]] [nm! "domain_route"]]⟩,
    ⟨nm! "domain_route", none, [
      goes [[wd! "DOMAIN"]] [nm! "domain_route"],
      goes [[wd! "COLON"]] [nm! "in"]]⟩,
    ⟨nm! "quoted_before_at", none, [
      goes [[wd! "EMAIL", wd! "WHITE", wd! "OTHER_QUOTED"]] [nm! "quoted_before_at"],
      goes [[wd! "DQUOTE"]] [nm! "before_at"]]⟩,
    ⟨nm! "before_at", none, [
      goes [[wd! "EMAIL"]] [nm! "before_at"],
      goes [[wd! "DQUOTE"]] [nm! "quoted_before_at"],
      goes [[.eps]] [nm! "out"],
      goes [[wd! "AT"]] [nm! "start_of_domain"]]⟩,
    ⟨nm! "start_of_domain", none, [
      goes [[wd! "LEFTSQUARE"]] [nm! "dotted_quad"],
      goes [[wd! "DOMAIN"]] [nm! "after_at"]]⟩,
    ⟨nm! "dotted_quad", none, [
      goes [[wd! "DIGIT", wd! "PERIOD"]] [nm! "dotted_quad"],
      goes [[wd! "RIGHTSQUARE"]] [nm! "out"]]⟩,
    ⟨nm! "after_at", none, [
      goes [[wd! "DOMAIN"]] [nm! "after_at", nm! "out"]]⟩]

/-- fromcheck.nfa:105-114 -/
def fromcheckAngledEmail : Decl := .block (nm! "angled_email") [] [
    ⟨nm! "in", none, [
      goes [[wd! "LT"]] [nm! "in_angles"]]⟩,
    ⟨nm! "in_angles", none, [
      goes [[inl! "email"]] [nm! "before_gt"]]⟩,
    ⟨nm! "before_gt", none, [
      goes [[wd! "GT"]] [nm! "out"]]⟩]

/-- fromcheck.nfa:116-126 -/
def fromcheckZone : Decl := .block (nm! "zone") [] [
    ⟨nm! "in", none, [
      goes [[wd! "UPPER"]] [nm! "zone2"],
      goes [[wd! "UPPER"]] [nm! "out"],
      goes [[wd! "PLUSMINUS"]] [nm! "zone2"]]⟩,
    ⟨nm! "zone2", none, [
      goes [[wd! "UPPER", wd! "LOWER"]] [nm! "zone2", nm! "out"],
      goes [[wd! "DIGIT"]] [nm! "zone2", nm! "out"]]⟩]

/-- fromcheck.nfa:131-189 -/
def fromcheckDate : Decl := .block (nm! "date") [] [
    ⟨nm! "in", none, [
      goes [[wd! "WHITE"]] [nm! "in", nm! "before_weekday"]]⟩,
    ⟨nm! "before_weekday", none, [
      goes [[wd! "UPPER"], [wd! "LOWER"], [wd! "LOWER"], [wd! "WHITE"]] [nm! "after_weekday"]]⟩,
    ⟨nm! "after_weekday", none, [
      goes [[wd! "WHITE"]] [nm! "after_weekday"],
      goes [[wd! "UPPER"], [wd! "LOWER"], [wd! "LOWER"], [wd! "WHITE"]] [nm! "after_month"]]⟩,
    ⟨nm! "after_month", none, [
      goes [[wd! "WHITE"]] [nm! "after_month"],
      goes [[wd! "DIGIT"], [wd! "WHITE"]] [nm! "after_day"],
      goes [[wd! "DIGIT"], [wd! "DIGIT"], [wd! "WHITE"]] [nm! "after_day"]]⟩,
    ⟨nm! "after_day", none, [
      goes [[wd! "WHITE"]] [nm! "after_day"],
      goes [[wd! "DIGIT"], [wd! "DIGIT"], [wd! "COLON"], [wd! "DIGIT"], [wd! "DIGIT"], [wd! "COLON"], [wd! "DIGIT"], [wd! "DIGIT"], [wd! "WHITE"]] [nm! "after_time"],
      goes [[wd! "DIGIT"], [wd! "DIGIT"], [wd! "COLON"], [wd! "DIGIT"], [wd! "DIGIT"], [wd! "WHITE"]] [nm! "after_time"]]⟩,
    ⟨nm! "after_time", none, [
      goes [[wd! "WHITE"]] [nm! "after_time"],
      goes [[.eps]] [nm! "after_timezone"],
      goes [[inl! "zone"], [wd! "WHITE"]] [nm! "after_timezone"],
      goes [[inl! "zone"], [wd! "WHITE"]] [nm! "after_timezone_1"],
      goes [[wd! "DIGIT"], [wd! "DIGIT"], [wd! "DIGIT"], [wd! "DIGIT"]] [nm! "after_year_before_zone"]]⟩,
    ⟨nm! "after_year_before_zone", none, [
      goes [[wd! "WHITE"]] [nm! "after_year_before_zone"],
      goes [[inl! "zone"]] [nm! "after_timezone_after_year"],
      goes [[inl! "zone"], [wd! "WHITE"]] [nm! "after_timezone_after_year_1"]]⟩,
    ⟨nm! "after_timezone_after_year_1", none, [
      goes [[wd! "WHITE"]] [nm! "after_timezone_after_year_1"],
      goes [[inl! "zone"]] [nm! "after_timezone_after_year"]]⟩,
    ⟨nm! "after_timezone_after_year", none, [
      goes [[wd! "WHITE"]] [nm! "after_timezone_after_year"],
      goes [[.eps]] [nm! "out"]]⟩,
    ⟨nm! "after_timezone_1", none, [
      goes [[wd! "WHITE"]] [nm! "after_timezone_1"],
      goes [[inl! "zone"], [wd! "WHITE"]] [nm! "after_timezone"]]⟩,
    ⟨nm! "after_timezone", none, [
      goes [[wd! "WHITE"]] [nm! "after_timezone"],
      goes [[wd! "DIGIT"], [wd! "DIGIT"], [wd! "DIGIT"], [wd! "DIGIT"]] [nm! "after_year"]]⟩,
    ⟨nm! "after_year", none, [
      goes [[wd! "WHITE"]] [nm! "after_year"],
      goes [[.eps]] [nm! "out"]]⟩]

/-- fromcheck.nfa:193-234 -/
def fromcheckDateOld : Decl := .block (nm! "date_old") [] [
    ⟨nm! "in", none, [
      goes [[wd! "WHITE"]] [nm! "in", nm! "before_weekday"]]⟩,
    ⟨nm! "before_weekday", none, [
      goes [[wd! "UPPER"], [wd! "LOWER"], [wd! "LOWER"], [wd! "COMMA"], [wd! "WHITE"]] [nm! "after_weekday"]]⟩,
    ⟨nm! "after_weekday", none, [
      goes [[wd! "WHITE"]] [nm! "after_weekday"],
      goes [[wd! "DIGIT"], [wd! "WHITE"]] [nm! "after_day"],
      goes [[wd! "DIGIT"], [wd! "DIGIT"], [wd! "WHITE"]] [nm! "after_day"]]⟩,
    ⟨nm! "after_day", none, [
      goes [[wd! "WHITE"]] [nm! "after_day"],
      goes [[wd! "UPPER"], [wd! "LOWER"], [wd! "LOWER"], [wd! "WHITE"]] [nm! "after_month"]]⟩,
    ⟨nm! "after_month", none, [
      goes [[wd! "DIGIT"], [wd! "DIGIT"], [wd! "DIGIT"], [wd! "DIGIT"]] [nm! "after_year"],
      goes [[wd! "DIGIT"], [wd! "DIGIT"]] [nm! "after_year"]]⟩,
    ⟨nm! "after_year", none, [
      goes [[wd! "WHITE"]] [nm! "after_year"],
      goes [[wd! "DIGIT"], [wd! "DIGIT"], [wd! "COLON"], [wd! "DIGIT"], [wd! "DIGIT"], [wd! "COLON"], [wd! "DIGIT"], [wd! "DIGIT"], [wd! "WHITE"]] [nm! "after_time"],
      goes [[wd! "DIGIT"], [wd! "DIGIT"], [wd! "COLON"], [wd! "DIGIT"], [wd! "DIGIT"], [wd! "WHITE"]] [nm! "after_time"]]⟩,
    ⟨nm! "after_time", none, [
      goes [[wd! "WHITE"]] [nm! "after_time"],
      goes [[.eps]] [nm! "after_timezone"],
      goes [[inl! "zone"]] [nm! "after_timezone"],
      goes [[inl! "zone"], [wd! "WHITE"]] [nm! "after_timezone_1"]]⟩,
    ⟨nm! "after_timezone_1", none, [
      goes [[wd! "WHITE"]] [nm! "after_timezone_1"],
      goes [[inl! "zone"]] [nm! "after_timezone"]]⟩,
    ⟨nm! "after_timezone", none, [
      goes [[wd! "WHITE"]] [nm! "after_timezone"],
      goes [[.eps]] [nm! "out"]]⟩]

/-- fromcheck.nfa:236-246 -/
def fromcheckRemote : Decl := .block (nm! "remote") [] [
    ⟨nm! "in", none, [
      goes [[wd! "WHITE"]] [nm! "in", nm! "before_remote"]]⟩,
    ⟨nm! "before_remote", none, [
      goes [[wd! "R"], [wd! "E"], [wd! "M"], [wd! "O"], [wd! "T"], [wd! "E"], [wd! "WHITE"], [wd! "F"], [wd! "R"], [wd! "O"], [wd! "M"], [wd! "WHITE"]] [nm! "host"]]⟩,
    ⟨nm! "host", none, [
      goes [[wd! "DOMAIN"]] [nm! "host"],
      goes [[.eps]] [nm! "out"]]⟩]

/-- fromcheck.nfa:251-283 -/
def fromcheckMain : Decl := .block (nm! "main") [] [
    ⟨nm! "in", none, [
      goes [[wd! "WHITE"]] [nm! "in"],
      goes [[inl! "email"]] [nm! "before_date"],
      goes [[inl! "angled_email"]] [nm! "before_date"],
      goes [[wd! "PLUSMINUS"]] [nm! "before_date"],
      goes [[.eps]] [nm! "before_date"]]⟩,
    ⟨nm! "before_date", none, [
      goes [[inl! "date"]] [nm! "opt_remote"],
      gives [[inl! "date"], [wd! "CR"], [wd! "LF"]] [bs "FROMCHECK_PASS"],
      goes [[inl! "date_old"]] [nm! "opt_remote"]]⟩,
    ⟨nm! "opt_remote", none, [
      gives [[inl! "remote"], [wd! "LF"]] [bs "FROMCHECK_PASS"],
      gives [[.eps]] [bs "FROMCHECK_PASS"]]⟩,
    ⟨nm! "in", none, []⟩]

/-- fromcheck.nfa:285-287 -/
def fromcheckAttrs : List Decl := [
  .attr (.attr (bs "FROMCHECK_PASS") none false),
  .attr (.attr (bs "FROMCHECK_FAIL") none false),
  .attr (.default (bs "FROMCHECK_FAIL"))]

/-- fromcheck.nfa -/
def fromcheckFile : NfaFile := ⟨fromcheckClasses, fromcheckAbbrevs ++ [fromcheckEmail, fromcheckAngledEmail, fromcheckZone, fromcheckDate, fromcheckDateOld, fromcheckRemote, fromcheckMain] ++ fromcheckAttrs⟩

/-! ## datescan.nfa -/

/-- The classes of datescan.nfa. -/
def datescanClasses : List ClassExpr := [
  .simple ⟨[.range 97 122, .range 65 90], false⟩,
  .simple ⟨[.single 49, .single 50], false⟩,
  .simple ⟨[.range 48 57], false⟩,
  .simple ⟨[.single 51], false⟩,
  .simple ⟨[.single 48, .single 49], false⟩,
  .simple ⟨[.single 48, .range 52 57], false⟩,
  .simple ⟨[.range 48 57], false⟩,
  .simple ⟨[.single 51], false⟩,
  .simple ⟨[.range 50 57], false⟩,
  .simple ⟨[.range 48 57], false⟩,
  .simple ⟨[.range 49 57], false⟩,
  .simple ⟨[.range 48 57], false⟩,
  .simple ⟨[.range 48 57], false⟩,
  .simple ⟨[.range 48 57], false⟩,
  .simple ⟨[.range 49 57], false⟩,
  .simple ⟨[.range 48 57], false⟩,
  .simple ⟨[.range 48 57], false⟩,
  .simple ⟨[.range 48 57], false⟩,
  .simple ⟨[.range 48 57], false⟩,
  .simple ⟨[.range 48 57], false⟩,
  .simple ⟨[.range 48 57], false⟩,
  .simple ⟨[.range 48 57], false⟩,
  .simple ⟨[.range 48 57], false⟩,
  .simple ⟨[.range 48 57], false⟩,
  .simple ⟨[.range 48 57], false⟩,
  .simple ⟨[.range 48 57], false⟩,
  .simple ⟨[.range 48 57], false⟩,
  .simple ⟨[.range 48 57], false⟩,
  .simple ⟨[.range 48 57], false⟩,
  .simple ⟨[.range 49 57], false⟩,
  .simple ⟨[.range 49 57], false⟩,
  .simple ⟨[.range 49 57], false⟩,
  .simple ⟨[.range 49 57], false⟩,
  .simple ⟨[.range 49 57], false⟩,
  .simple ⟨[.range 49 57], false⟩]

/-- datescan.nfa:29-29 -/
def datescanAbbrevs : List Decl := [
  .abbreviation (nm! "A") [.cls 0]]

/-- datescan.nfa:31-35 -/
def datescanDay : Decl := .block (nm! "day") [] [
    ⟨nm! "in", none, [
      goes [[.cls 1], [.cls 2]] [nm! "out"],
      goes [[.cls 3], [.cls 4]] [nm! "out"]]⟩]

/-- datescan.nfa:38-42 -/
def datescanYear : Decl := .block (nm! "year") [] [
    ⟨nm! "in", none, [
      goes [[.cls 5], [.cls 6]] [nm! "out"],
      goes [[.cls 7], [.cls 8]] [nm! "out"]]⟩]

/-- datescan.nfa:44-47 -/
def datescanMonth : Decl := .block (nm! "month") [] [
    ⟨nm! "in", none, [
      goes [[wd! "A"], [wd! "A"], [wd! "A"]] [nm! "out"]]⟩]

/-- datescan.nfa:49-55 -/
def datescanScaled : Decl := .block (nm! "scaled") [] [
    ⟨nm! "in", none, [
      goes [[.cls 9]] [nm! "in", nm! "after_value"]]⟩,
    ⟨nm! "after_value", none, [
      goes [[wd! "A"]] [nm! "out"]]⟩]

/-- datescan.nfa:57-60 -/
def datescanCcyy : Decl := .block (nm! "ccyy") [] [
    ⟨nm! "in", none, [
      goes [[.cls 10], [.cls 11], [.cls 12], [.cls 13]] [nm! "out"]]⟩]

/-- datescan.nfa:62-91 -/
def datescanMain : Decl := .block (nm! "main") [] [
    ⟨nm! "in", none, [
      gives [[.cls 14]] [bs "DS_D"],
      gives [[inl! "day"]] [bs "DS_D"],
      gives [[inl! "year"]] [bs "DS_Y"],
      gives [[inl! "ccyy"]] [bs "DS_Y"],
      gives [[.cls 15], [.cls 16], [.cls 17], [.cls 18], [.cls 19], [.cls 20]] [bs "DS_YYMMDD"],
      gives [[.cls 21], [.cls 22], [.cls 23], [.cls 24], [.cls 25], [.cls 26], [.cls 27], [.cls 28]] [bs "DS_YYMMDD"],
      gives [[inl! "scaled"]] [bs "DS_SCALED"],
      gives [[inl! "month"]] [bs "DS_M"],
      gives [[.cls 29], [inl! "month"]] [bs "DS_DM"],
      gives [[inl! "day"], [inl! "month"]] [bs "DS_DM"],
      gives [[inl! "month"], [.cls 30]] [bs "DS_MD"],
      gives [[inl! "month"], [inl! "day"]] [bs "DS_MD"],
      gives [[inl! "year"], [inl! "month"]] [bs "DS_YM"],
      gives [[inl! "month"], [inl! "year"]] [bs "DS_MY"],
      gives [[inl! "ccyy"], [inl! "month"]] [bs "DS_YM"],
      gives [[inl! "month"], [inl! "ccyy"]] [bs "DS_MY"],
      gives [[inl! "year"], [inl! "month"], [.cls 31]] [bs "DS_YMD"],
      gives [[inl! "year"], [inl! "month"], [inl! "day"]] [bs "DS_YMD"],
      gives [[.cls 32], [inl! "month"], [inl! "year"]] [bs "DS_DMY"],
      gives [[inl! "day"], [inl! "month"], [inl! "year"]] [bs "DS_DMY"],
      gives [[inl! "ccyy"], [inl! "month"], [.cls 33]] [bs "DS_YMD"],
      gives [[inl! "ccyy"], [inl! "month"], [inl! "day"]] [bs "DS_YMD"],
      gives [[.cls 34], [inl! "month"], [inl! "ccyy"]] [bs "DS_DMY"],
      gives [[inl! "day"], [inl! "month"], [inl! "ccyy"]] [bs "DS_DMY"]]⟩]

/-- datescan.nfa:93-105 -/
def datescanAttrs : List Decl := [
  .attr (.attr (bs "DS_D") none false),
  .attr (.attr (bs "DS_Y") none false),
  .attr (.attr (bs "DS_YYMMDD") none false),
  .attr (.attr (bs "DS_SCALED") none false),
  .attr (.attr (bs "DS_M") none false),
  .attr (.attr (bs "DS_DM") none false),
  .attr (.attr (bs "DS_MD") none false),
  .attr (.attr (bs "DS_YM") none false),
  .attr (.attr (bs "DS_MY") none false),
  .attr (.attr (bs "DS_YMD") none false),
  .attr (.attr (bs "DS_DMY") none false),
  .attr (.default (bs "DS_FAILURE"))]

/-- datescan.nfa -/
def datescanFile : NfaFile := ⟨datescanClasses, datescanAbbrevs ++ [datescanDay, datescanYear, datescanMonth, datescanScaled, datescanCcyy, datescanMain] ++ datescanAttrs⟩

/-! ## nvp.nfa -/

/-- The classes of nvp.nfa. -/
def nvpscanClasses : List ClassExpr := [
  .minus ⟨[.range 33 126], false⟩ ⟨[.single 92, .single 34, .single 59], false⟩,
  .simple ⟨[.single 9, .single 32, .single 59], false⟩,
  .simple ⟨[.range 48 57, .range 97 122, .range 65 90, .single 95, .single 45], false⟩,
  .simple ⟨[.single 92, .single 46, .single 45, .single 43], false⟩,
  .simple ⟨[.single 92], false⟩,
  .simple ⟨[.single 92], false⟩,
  .simple ⟨[.single 92], false⟩,
  .simple ⟨[.single 34], false⟩,
  .simple ⟨[.single 32, .single 9, .single 13], false⟩,
  .simple ⟨[.single 32, .single 9], false⟩,
  .simple ⟨[.single 32, .single 9], false⟩,
  .simple ⟨[.single 34], false⟩,
  .simple ⟨[.single 34], false⟩,
  .simple ⟨[.range 48 57], false⟩,
  .simple ⟨[.range 48 57], false⟩,
  .simple ⟨[.single 61], false⟩,
  .simple ⟨[.single 42], false⟩,
  .simple ⟨[.single 61], false⟩,
  .simple ⟨[.single 42], false⟩,
  .simple ⟨[.single 61], false⟩,
  .simple ⟨[.single 42], false⟩,
  .simple ⟨[.single 48], false⟩,
  .simple ⟨[.single 42], false⟩,
  .simple ⟨[.single 61], false⟩,
  .simple ⟨[.single 42], false⟩,
  .simple ⟨[.range 49 57, .range 65 90, .range 97 122], false⟩,
  .simple ⟨[.single 42], false⟩,
  .simple ⟨[.single 61], false⟩,
  .simple ⟨[.single 39], false⟩,
  .simple ⟨[.single 39], false⟩,
  .simple ⟨[.single 39], false⟩,
  .simple ⟨[.single 39], false⟩,
  .simple ⟨[.single 47], false⟩,
  .simple ⟨[.single 59], false⟩,
  .simple ⟨[.single 59], false⟩]

/-- nvp.nfa:22-27 -/
def nvpscanAbbrevs : List Decl := [
  .tokens [nm! "EOS"],
  .abbreviation (nm! "VALUE") [.cls 0],
  .abbreviation (nm! "QVALUE") [wd! "VALUE", .cls 1, inl! "escape"],
  .abbreviation (nm! "NAME1") [.cls 2],
  .abbreviation (nm! "MINOR") [wd! "NAME1", .cls 3],
  .abbreviation (nm! "OWS") [inl! "optwhite"]]

/-- nvp.nfa:33-37 -/
def nvpscanEscape : Decl := .block (nm! "escape") [] [
    ⟨nm! "in", none, [
      goes [[.cls 4], [.cls 5]] [nm! "out"],
      goes [[.cls 6], [.cls 7]] [nm! "out"]]⟩]

/-- nvp.nfa:39-44 -/
def nvpscanOptwhite : Decl := .block (nm! "optwhite") [] [
    ⟨nm! "in", none, [
      goes [[.eps]] [nm! "out"],
      goes [[.cls 8]] [nm! "in"]]⟩]

/-- nvp.nfa:46-67 -/
def nvpscanName : Decl := .block (nm! "name") [] [
    ⟨nm! "in", none, [
      goes [[wd! "NAME1"]] [nm! "name1"]]⟩,
    ⟨nm! "name1", none, [
      gives [[.eps]] [bs "COPY_TO_NAME"],
      gives [[.eps]] [bs "GOT_NAME"],
      goes [[wd! "NAME1"]] [nm! "name1"],
      goes [[.cls 9]] [nm! "name2"],
      goes [[.eps]] [nm! "out"]]⟩,
    ⟨nm! "name2", none, [
      gives [[.eps]] [bs "COPY_TO_NAME"],
      gives [[.eps]] [bs "GOT_NAME_TRAILING_SPACE"],
      goes [[.cls 10]] [nm! "name2"],
      goes [[wd! "NAME1"]] [nm! "name1"],
      goes [[.eps]] [nm! "out"]]⟩,
    ⟨nm! "out", none, []⟩]

/-- nvp.nfa:69-76 -/
def nvpscanValue : Decl := .block (nm! "value") [] [
    ⟨nm! "in", none, [
      goes [[wd! "VALUE"]] [nm! "v1"]]⟩,
    ⟨nm! "v1", none, [
      gives [[.eps]] [bs "COPY_TO_VALUE"],
      goes [[.eps]] [nm! "out"],
      goes [[wd! "VALUE"]] [nm! "v1"]]⟩]

/-- nvp.nfa:78-92 -/
def nvpscanQvalue : Decl := .block (nm! "qvalue") [] [
    ⟨nm! "in", none, [
      goes [[.cls 11]] [nm! "qv0"]]⟩,
    ⟨nm! "qv0", none, [
      goes [[wd! "QVALUE"]] [nm! "qv1"]]⟩,
    ⟨nm! "qv1", none, [
      gives [[.eps]] [bs "COPY_TO_VALUE"],
      goes [[wd! "QVALUE"]] [nm! "qv1"],
      goes [[.eps]] [nm! "qv2"]]⟩,
    ⟨nm! "qv2", none, [
      goes [[.cls 12]] [nm! "out"]]⟩]

/-- nvp.nfa:94-98 -/
def nvpscanDigits : Decl := .block (nm! "digits") [] [
    ⟨nm! "in", none, [
      goes [[.cls 13]] [nm! "out"],
      goes [[.cls 14]] [nm! "in"]]⟩]

/-- nvp.nfa:100-108 -/
def nvpscanMinor : Decl := .block (nm! "minor") [] [
    ⟨nm! "in", none, [
      goes [[wd! "MINOR"]] [nm! "minor1"]]⟩,
    ⟨nm! "minor1", none, [
      gives [[.eps]] [bs "COPY_TO_MINOR"],
      goes [[wd! "MINOR"]] [nm! "minor1"],
      goes [[.eps]] [nm! "out"]]⟩]

/-- nvp.nfa:110-142 -/
def nvpscanNamevalue : Decl := .block (nm! "namevalue") [] [
    ⟨nm! "in", none, [
      goes [[wd! "OWS"], [inl! "name"], [wd! "OWS"], [.cls 15]] [nm! "rhs_normal"],
      goes [[wd! "OWS"], [inl! "name"], [.cls 16], [inl! "digits"], [wd! "OWS"], [.cls 17]] [nm! "rhs_continue"],
      goes [[wd! "OWS"], [inl! "name"], [.cls 18], [wd! "OWS"], [.cls 19]] [nm! "rhs_charset"],
      goes [[wd! "OWS"], [inl! "name"], [.cls 20], [.cls 21], [.cls 22], [wd! "OWS"], [.cls 23]] [nm! "rhs_charset"],
      goes [[wd! "OWS"], [inl! "name"], [.cls 24], [.cls 25], [.cls 26], [wd! "OWS"], [.cls 27]] [nm! "rhs_charset_continue"]]⟩,
    ⟨nm! "rhs_normal", none, [
      goes [[wd! "OWS"], [inl! "qvalue"], [wd! "OWS"]] [nm! "out_normal"],
      goes [[wd! "OWS"], [inl! "value"], [wd! "OWS"]] [nm! "out_normal"],
      goes [[wd! "OWS"], [.eps], [wd! "EOS"]] [nm! "out_normal"]]⟩,
    ⟨nm! "rhs_continue", none, [
      goes [[wd! "OWS"], [inl! "qvalue"], [wd! "OWS"]] [nm! "out_continue"],
      goes [[wd! "OWS"], [inl! "value"], [wd! "OWS"]] [nm! "out_continue"]]⟩,
    ⟨nm! "rhs_charset", none, [
      goes [[wd! "OWS"], [.cls 28], [.cls 29], [inl! "value"], [wd! "OWS"]] [nm! "out_charset"],
      goes [[wd! "OWS"], [inl! "minor"], [.cls 30], [.cls 31], [inl! "value"], [wd! "OWS"]] [nm! "out_charset"]]⟩,
    ⟨nm! "rhs_charset_continue", none, [
      goes [[wd! "OWS"], [inl! "value"], [wd! "OWS"]] [nm! "out_charset_continue"]]⟩,
    ⟨nm! "out_normal", none, [
      gives [[.eps]] [bs "GOT_NAMEVALUE"],
      goes [[.eps]] [nm! "out"]]⟩,
    ⟨nm! "out_continue", none, [
      gives [[.eps]] [bs "GOT_NAMEVALUE_CONT"],
      goes [[.eps]] [nm! "out"]]⟩,
    ⟨nm! "out_charset", none, [
      gives [[.eps]] [bs "GOT_NAMEVALUE_CSET"],
      goes [[.eps]] [nm! "out"]]⟩,
    ⟨nm! "out_charset_continue", none, [
      gives [[.eps]] [bs "GOT_NAMEVALUE_CCONT"],
      goes [[.eps]] [nm! "out"]]⟩]

/-- nvp.nfa:144-151 -/
def nvpscanMajor : Decl := .block (nm! "major") [] [
    ⟨nm! "in", none, [
      goes [[wd! "NAME1"]] [nm! "name1"]]⟩,
    ⟨nm! "name1", none, [
      goes [[wd! "NAME1"]] [nm! "name1"],
      goes [[.eps]] [nm! "out"]]⟩]

/-- nvp.nfa:153-164 -/
def nvpscanMajorminor : Decl := .block (nm! "majorminor") [] [
    ⟨nm! "in", none, [
      goes [[inl! "major"]] [nm! "foo"]]⟩,
    ⟨nm! "foo", none, [
      goes [[.cls 32]] [nm! "bar"]]⟩,
    ⟨nm! "bar", none, [
      goes [[inl! "minor"]] [nm! "out"]]⟩,
    ⟨nm! "out", none, [
      gives [[.eps]] [bs "GOT_MAJORMINOR"]]⟩]

/-- nvp.nfa:166-171 -/
def nvpscanComponent : Decl := .block (nm! "component") [] [
    ⟨nm! "in", none, [
      goes [[inl! "namevalue"]] [nm! "out"],
      goes [[inl! "name"]] [nm! "out"],
      goes [[inl! "majorminor"]] [nm! "out"]]⟩]

/-- nvp.nfa:173-186 -/
def nvpscanMain : Decl := .block (nm! "main") [] [
    ⟨nm! "in", (some (bs "in")), [
      goes [[wd! "OWS"], [inl! "component"], [wd! "OWS"], [wd! "EOS"]] [nm! "out2"],
      goes [[wd! "OWS"], [inl! "component"], [wd! "OWS"], [.cls 33], [wd! "OWS"], [wd! "EOS"]] [nm! "out2"],
      goes [[wd! "OWS"], [inl! "component"], [wd! "OWS"], [.cls 34]] [nm! "in2"]]⟩,
    ⟨nm! "in2", none, [
      gives [[.eps]] [bs "GOT_TERMINATOR"],
      goes [[.eps]] [nm! "in"]]⟩,
    ⟨nm! "out2", none, [
      gives [[.eps]] [bs "GOT_TERMINATOR"],
      goes [[.eps]] [nm! "out"]]⟩]

/-- nvp.nfa:188-204 -/
def nvpscanAttrs : List Decl := [
  .attr (.default (bs "0")),
  .group (bs "action") [.attr (bs "GOT_NAMEVALUE") none false, .attr (bs "GOT_NAMEVALUE_CONT") none false, .attr (bs "GOT_NAMEVALUE_CSET") none false, .attr (bs "GOT_NAMEVALUE_CCONT") none false, .attr (bs "GOT_NAME") none false, .attr (bs "GOT_NAME_TRAILING_SPACE") none false, .attr (bs "GOT_MAJORMINOR") none false, .attr (bs "GOT_TERMINATOR") none false, .default (bs "GOT_NOTHING")],
  .group (bs "copier") [.attr (bs "COPY_TO_NAME") none false, .attr (bs "COPY_TO_MINOR") none false, .attr (bs "COPY_TO_VALUE") none false, .default (bs "COPY_NOWHERE")]]

/-- nvp.nfa -/
def nvpscanFile : NfaFile := ⟨nvpscanClasses, nvpscanAbbrevs ++ [nvpscanEscape, nvpscanOptwhite, nvpscanName, nvpscanValue, nvpscanQvalue, nvpscanDigits, nvpscanMinor, nvpscanNamevalue, nvpscanMajor, nvpscanMajorminor, nvpscanComponent, nvpscanMain] ++ nvpscanAttrs⟩

end Mairix
