import Verif.Props.RcSafe
import Verif.Props.Folders

/-!
# C55: options, environment and configuration file
-/

namespace Mairix
open Spec

example (e : Env) : parseRcFile e (some (List.replicate 5000 0x61 ++ 0x0a :: bs "base=/m\n")) = .error (.exit 2) :=
  C54_long e (fun h => absurd (List.eq_of_mem_replicate h) (by decide)) (fun h => absurd (List.eq_of_mem_replicate h) (by decide)) (by rw [List.length_replicate]; omega)

/-- What a list of options sets. -/
structure OptsMean (is : List OptItem) (o : Opts) : Prop where
  rcFile : o.rcFile = (rcFilesOf is).getLast?
  mfolder : o.mfolder = (mfoldersOf is).getLast?
  threads : o.threads = true ↔ .flag .threads ∈ is
  augment : o.augment = true ↔ .flag .augment ∈ is
  search : o.search = true ↔ (.flag .threads ∈ is ∨ .flag .augment ∈ is)
  purge : o.purge = true ↔ .flag .purge ∈ is
  dump : o.dump = true ↔ .flag .dump ∈ is
  raw : o.raw = true ↔ .flag .raw ∈ is
  excerpt : o.excerpt = true ↔ .flag .excerpt ∈ is
  hardlinks : o.hardlinks = true ↔ .flag .hardlinks ∈ is
  integrity : o.integrity = false ↔ .flag .noChecks ∈ is
  unlock : o.unlock = true ↔ .flag .unlock ∈ is
  fast : o.fast = true ↔ .flag .fast ∈ is
  help : o.help = false

/-- What one option does. -/
def optDo (o : Opts) : OptItem → Opts
  | .flag .threads => { o with search := true, threads := true }
  | .flag .augment => { o with search := true, augment := true }
  | .flag .purge => { o with purge := true }
  | .flag .dump => { o with dump := true }
  | .flag .raw => { o with raw := true }
  | .flag .excerpt => { o with excerpt := true }
  | .flag .hardlinks => { o with hardlinks := true }
  | .flag .noChecks => { o with integrity := false }
  | .flag .unlock => { o with unlock := true }
  | .flag .fast => { o with fast := true }
  | .flag .verbose => { o with verbose := true }
  | .rcFile x => { o with rcFile := some x }
  | .mfolder x => { o with mfolder := some x }

theorem optFlag_form (o : Opts) : ∀ (f : OptFlag) (w : Text), w ∈ f.forms → optFlag o w = some (optDo o (.flag f)) := by
  intro f w hw
  cases f <;>
  · simp only [OptFlag.forms, List.mem_cons, List.not_mem_nil, or_false] at hw
    first
    | (rcases hw with rfl | rfl <;> rfl)
    | (subst hw; rfl)

theorem parseOpts_flag (o : Opts) {f : OptFlag} {w : Text} (hw : w ∈ f.forms) (l : List Text) : parseOpts o (w :: l) = parseOpts (optDo o (.flag f)) l := by
  have hs : ¬ (w = bs "-f" ∨ w = bs "--rcfile") ∧ ¬ (w = bs "-o" ∨ w = bs "--mfolder") ∧ ¬ (w = bs "-V" ∨ w = bs "--version") := by
    have : ∀ f : OptFlag, ∀ w ∈ f.forms, ¬ (w = bs "-f" ∨ w = bs "--rcfile") ∧ ¬ (w = bs "-o" ∨ w = bs "--mfolder") ∧ ¬ (w = bs "-V" ∨ w = bs "--version") := by
      intro f; cases f <;> decide +kernel
    exact this f w hw
  conv => lhs; unfold parseOpts
  rw [if_neg hs.1, if_neg hs.2.1, if_neg hs.2.2, optFlag_form o f w hw]

theorem parseOpts_item (o : Opts) {i : OptItem} {ws : List Text} (h : i.Words ws) (l : List Text) : parseOpts o (ws ++ l) = parseOpts (optDo o i) l := by
  cases h with
  | flag hw => exact parseOpts_flag o hw l
  | rcFile hw =>
    simp only [List.mem_cons, List.not_mem_nil, or_false] at hw
    rcases hw with rfl | rfl
    all_goals
      simp only [List.cons_append, List.nil_append]
      conv => lhs; unfold parseOpts
      rw [if_pos (by decide +kernel)]
      simp only [optDo]
  | mfolder hw =>
    simp only [List.mem_cons, List.not_mem_nil, or_false] at hw
    rcases hw with rfl | rfl
    all_goals
      simp only [List.cons_append, List.nil_append]
      conv => lhs; unfold parseOpts
      rw [if_neg (by decide +kernel), if_pos (by decide +kernel)]
      simp only [optDo]

theorem optsMean_step {is : List OptItem} {o : Opts} (h : OptsMean is o) (i : OptItem) : OptsMean (is ++ [i]) (optDo o i) := by
  obtain ⟨h1, h2, h3, h4, h5, h6, h7, h8, h9, h10, h11, h12, h13, h14⟩ := h
  cases i with
  | flag f => cases f <;> constructor <;> simp_all [optDo, rcFilesOf, mfoldersOf]
  | rcFile x => constructor <;> simp_all [optDo, rcFilesOf, mfoldersOf]
  | mfolder x => constructor <;> simp_all [optDo, rcFilesOf, mfoldersOf]

theorem parseOpts_line {is : List OptItem} {xs argv : List Text} (h : CommandLine is xs argv) :
    ∀ done o, OptsMean done o → ∃ o', parseOpts o argv = .ok (o', xs) ∧ OptsMean (done ++ is) o' := by
  induction h with
  | none => intro done o ho; exact ⟨o, rfl, by simpa using ho⟩
  | @exprs x xs hx =>
    intro done o ho
    refine ⟨o, ?_, by simpa using ho⟩
    have ne : ∀ w : Text, w.head? = some 0x2d → x ≠ w := by rintro w hw rfl; exact hx hw
    have hn : optFlag o x = none := by
      unfold optFlag
      simp only [ne (bs "-t") rfl, ne (bs "--threads") rfl, ne (bs "-a") rfl, ne (bs "--augment") rfl, ne (bs "-p") rfl, ne (bs "--purge") rfl, ne (bs "-d") rfl,
        ne (bs "--dump") rfl, ne (bs "-r") rfl, ne (bs "--raw-output") rfl, ne (bs "-x") rfl, ne (bs "--excerpt-output") rfl, ne (bs "-H") rfl,
        ne (bs "--force-hardlinks") rfl, ne (bs "-Q") rfl, ne (bs "--no-integrity-checks") rfl, ne (bs "--unlock") rfl, ne (bs "-F") rfl, ne (bs "--fast-index") rfl,
        ne (bs "-v") rfl, ne (bs "--verbose") rfl, ne (bs "-h") rfl, ne (bs "--help") rfl, or_self, if_false]
    unfold parseOpts; rw [if_neg (by simp [ne (bs "-f") rfl, ne (bs "--rcfile") rfl]), if_neg (by simp [ne (bs "-o") rfl, ne (bs "--mfolder") rfl]),
      if_neg (by simp [ne (bs "-V") rfl, ne (bs "--version") rfl]), hn]
    dsimp only
    rw [if_neg (ne (bs "--") rfl), if_neg hx]
  | @dashes xs =>
    intro done o ho
    refine ⟨o, ?_, by simpa using ho⟩
    unfold parseOpts; rw [if_neg (by decide +kernel), if_neg (by decide +kernel), if_neg (by decide +kernel)]
    have : optFlag o (bs "--") = none := rfl
    rw [this]
    rfl
  | opt hi _ ih =>
    intro done o ho
    obtain ⟨o', h1, h2⟩ := ih _ _ (optsMean_step ho _)
    exact ⟨o', by rw [parseOpts_item o hi]; exact h1, by simpa using h2⟩

/-- **C55**, options: on every command line, in whatever order the options are and in whatever form, each option has its documented effect, of several files or folders given the last
counts, and the words after the options are the search expressions. -/
theorem C55_options {is : List OptItem} {xs argv : List Text} (h : CommandLine is xs argv) : ∃ o, parseOpts {} argv = .ok (o, xs) ∧ OptsMean is o := by
  have h0 : OptsMean [] {} := by constructor <;> simp [rcFilesOf, mfoldersOf]
  exact parseOpts_line h [] {} h0

theorem override_eq (e : Env) (o : Opts) (rc : Rc) (hn : e.get (bs "MAIRIX_MAILDIR_FOLDERS") = none) :
    override e o rc = { rc with
      base := firstOf [e.get (bs "MAIRIX_FOLDER_BASE"), rc.base]
      mhs := firstOf [e.get (bs "MAIRIX_MH_FOLDERS"), rc.mhs]
      mboxen := firstOf [e.get (bs "MAIRIX_MBOXEN"), rc.mboxen]
      mfolder := firstOf [o.mfolder, e.get (bs "MAIRIX_MFOLDER"), rc.mfolder]
      database := firstOf [e.get (bs "MAIRIX_DATABASE"), rc.database]
      format := if o.raw then .raw else if o.excerpt then .excerpt else rc.format } := by
  have f2 : ∀ a b : Option Text, overrideBy a a b = firstOf [a, b] := by intro a b; cases a <;> cases b <;> rfl
  have f3 : ∀ a b c : Option Text, firstOf [a, firstOf [b, c]] = firstOf [a, b, c] := by
    intro a b c; cases a <;> cases b <;> cases c <;> rfl
  have f4 : ∀ a b : Option Text, overrideBy none a b = b := fun _ _ => rfl
  unfold override
  simp only [hn, f2, f3, f4]

/-- The settings of folders after the environment was asked. -/
def folderSettings (e : Env) (rc : Rc) (base : Text) : Config :=
  ⟨base, rc.maildirs, firstOf [e.get (bs "MAIRIX_MH_FOLDERS"), rc.mhs], firstOf [e.get (bs "MAIRIX_MBOXEN"), rc.mboxen], rc.omitted, rc.followLinks⟩

/-- What is known once command line and configuration file have been read. -/
structure Started (e : Env) (files : Text → Option Text) (argv : List Text) (is : List OptItem) (xs : List Text) (items : List RcItem) (rc : Rc) : Prop where
  line : CommandLine is xs argv
  noMaildirs : e.get (bs "MAIRIX_MAILDIR_FOLDERS") = none
  file : ∃ text, files (firstOf [(rcFilesOf is).getLast?, some ((firstOf [e.get (bs "HOME"), some e.pwDir]).getD [] ++ bs "/.mairixrc")] |>.getD []) = some text ∧ WritesRc items text
  formats : FormatsOk e items
  means : RcMeans e items rc

theorem started_job {e : Env} {files : Text → Option Text} {argv : List Text} {is : List OptItem} {xs : List Text} {items : List RcItem} {rc : Rc}
    (h : Started e files argv is xs items rc) : ∃ o, OptsMean is o ∧ mainJob e files argv = jobOf o xs (override e o rc) := by
  obtain ⟨o, h1, h2⟩ := C55_options h.line
  refine ⟨o, h2, ?_⟩
  obtain ⟨text, ht, hw⟩ := h.file
  obtain ⟨rc', hr, hm⟩ := C54_settings_partial e hw h.formats
  obtain rfl := rcMeans_unique hm h.means
  have hf : rcFileName e o.rcFile = (firstOf [(rcFilesOf is).getLast?, some ((firstOf [e.get (bs "HOME"), some e.pwDir]).getD [] ++ bs "/.mairixrc")] |>.getD []) := by
    rw [h2.rcFile]
    unfold rcFileName Env.home
    cases (rcFilesOf is).getLast? <;> cases e.get (bs "HOME") <;> rfl
  unfold mainJob
  simp only [h1, bind, Except.bind, h2.help, hf, ht, hr, Bool.false_eq_true, if_false]

/-- **C55**, searches (partial: `MAIRIX_MAILDIR_FOLDERS` is not set; see `C55_environment_violation`): if there is a search expression or `-t` or `-a`, and no `-d`, then mairix searches, for these expressions, in the database,
into the folder, in the format and with the options that the command line, then the environment, then the configuration file give. -/
theorem C55_search_partial {e : Env} {files : Text → Option Text} {argv : List Text} {is : List OptItem} {xs : List Text} {items : List RcItem} {rc : Rc}
    (h : Started e files argv is xs items rc) (hd : OptItem.flag .dump ∉ is) (hx : xs ≠ [] ∨ OptItem.flag .threads ∈ is ∨ OptItem.flag .augment ∈ is)
    {base database : Text} (hb : firstOf [e.get (bs "MAIRIX_FOLDER_BASE"), rc.base] = some base) (hdb : firstOf [e.get (bs "MAIRIX_DATABASE"), rc.database] = some database)
    {format : OutFormat} (hf : format = if OptItem.flag .raw ∈ is then .raw else if OptItem.flag .excerpt ∈ is then .excerpt else rc.format)
    {m : Text} (hm : firstOf [(mfoldersOf is).getLast?, e.get (bs "MAIRIX_MFOLDER"), rc.mfolder] = some m ∨
      (firstOf [(mfoldersOf is).getLast?, e.get (bs "MAIRIX_MFOLDER"), rc.mfolder] = none ∧ m = [] ∧ (format = .raw ∨ format = .excerpt))) :
    mainJob e files argv = .ok (.search (folderSettings e rc base) database m format (decide (OptItem.flag .threads ∈ is)) (decide (OptItem.flag .augment ∈ is))
      (decide (OptItem.flag .hardlinks ∈ is)) rc.sortByDate xs) := by
  obtain ⟨o, ho, hj⟩ := started_job h
  rw [hj, override_eq e o rc h.noMaildirs]
  have t1 : ∀ {b : Bool} {P : Prop} [Decidable P], (b = true ↔ P) → b = decide P := by
    intro b P _ h; cases b <;> simp_all
  have hfm : (if o.raw then OutFormat.raw else if o.excerpt then OutFormat.excerpt else rc.format) = format := by
    rw [hf, t1 ho.raw, t1 ho.excerpt]; simp
  unfold jobOf
  simp only [hb, hdb, hfm, ho.mfolder]
  have hdump : o.dump = false := by rw [t1 ho.dump]; simpa using hd
  have hs : (o.search = true ∨ xs ≠ []) := by
    rcases hx with hx | hx
    · exact .inr hx
    · exact .inl (ho.search.2 hx)
  rw [hdump, if_neg (by simp), if_pos hs]
  rcases hm with hm | ⟨hm, rfl, hfr⟩
  · rw [hm, t1 ho.threads, t1 ho.augment, t1 ho.hardlinks]
    rfl
  · rw [hm, t1 ho.threads, t1 ho.augment, t1 ho.hardlinks]
    simp only
    rw [if_pos hfr]
    rfl

/-- **C55**, indexing (partial in the same way): without search expressions, `-t`, `-a` and `-d` mairix indexes the folders that are configured, if there are any. -/
theorem C55_index_partial {e : Env} {files : Text → Option Text} {argv : List Text} {is : List OptItem} {items : List RcItem} {rc : Rc}
    (h : Started e files argv is [] items rc) (hd : OptItem.flag .dump ∉ is) (ht : OptItem.flag .threads ∉ is) (ha : OptItem.flag .augment ∉ is)
    {base database : Text} (hb : firstOf [e.get (bs "MAIRIX_FOLDER_BASE"), rc.base] = some base) (hdb : firstOf [e.get (bs "MAIRIX_DATABASE"), rc.database] = some database)
    (hi : rc.imapPipe = none ∨ rc.imapServer = none)
    {imaps : Option Text} (him : imaps = if rc.imapPipe ≠ none ∨ rc.imapServer ≠ none then rc.imaps else none)
    (hf : rc.maildirs ≠ none ∨ firstOf [e.get (bs "MAIRIX_MH_FOLDERS"), rc.mhs] ≠ none ∨ firstOf [e.get (bs "MAIRIX_MBOXEN"), rc.mboxen] ≠ none ∨ imaps ≠ none) :
    mainJob e files argv = .ok (.index (folderSettings e rc base) database imaps (decide (OptItem.flag .purge ∈ is)) (decide (OptItem.flag .fast ∈ is))
      (decide (OptItem.flag .noChecks ∉ is ∧ RcItem.flag .nochecks ∉ items))) := by
  obtain ⟨o, ho, hj⟩ := started_job h
  rw [hj, override_eq e o rc h.noMaildirs]
  have t1 : ∀ {b : Bool} {P : Prop} [Decidable P], (b = true ↔ P) → b = decide P := by
    intro b P _ h; cases b <;> simp_all
  unfold jobOf
  simp only [hb, hdb]
  have hdump : o.dump = false := by rw [t1 ho.dump]; simpa using hd
  have hs : ¬ (o.search = true ∨ ([] : List Text) ≠ []) := by
    rintro (hx | hx)
    · rcases ho.search.1 hx with h | h
      · exact ht h
      · exact ha h
    · exact hx rfl
  rw [hdump, if_neg (by simp), if_neg hs]
  rw [if_neg (by rcases hi with hi | hi <;> simp [hi])]
  have hii : (if rc.imapPipe.isSome = true ∨ rc.imapServer.isSome = true then rc.imaps else none) = imaps := by
    rw [him]
    cases rc.imapPipe <;> cases rc.imapServer <;> simp
  simp only [hii]
  have hn : ¬ (rc.maildirs.isNone = true ∧ (firstOf [e.get (bs "MAIRIX_MH_FOLDERS"), rc.mhs]).isNone = true ∧ (firstOf [e.get (bs "MAIRIX_MBOXEN"), rc.mboxen]).isNone = true ∧ imaps.isNone = true) := by
    simp only [Option.isNone_iff_eq_none]
    rintro ⟨h1, h2, h3, h4⟩
    rcases hf with hf | hf | hf | hf
    · exact hf h1
    · exact hf h2
    · exact hf h3
    · exact hf h4
  rw [if_neg hn]
  have hint : (o.integrity && !rc.skipChecks) = decide (OptItem.flag .noChecks ∉ is ∧ RcItem.flag .nochecks ∉ items) := by
    have h1 := ho.integrity
    have h2 := h.means.flag .nochecks
    simp only [FlagKey.of] at h2
    apply t1
    cases hq : o.integrity <;> cases hr : rc.skipChecks <;> simp_all
  simp only [hint, t1 ho.purge, t1 ho.fast]
  rfl

/-- **C55**, dumps. -/
theorem C55_dump_partial {e : Env} {files : Text → Option Text} {argv : List Text} {is : List OptItem} {xs : List Text} {items : List RcItem} {rc : Rc}
    (h : Started e files argv is xs items rc) (hd : OptItem.flag .dump ∈ is)
    {base database : Text} (hb : firstOf [e.get (bs "MAIRIX_FOLDER_BASE"), rc.base] = some base) (hdb : firstOf [e.get (bs "MAIRIX_DATABASE"), rc.database] = some database) :
    mainJob e files argv = .ok (.dump database) := by
  obtain ⟨o, ho, hj⟩ := started_job h
  rw [hj, override_eq e o rc h.noMaildirs]
  unfold jobOf
  simp only [hb, hdb]
  rw [if_pos (ho.dump.2 hd)]

/-- **C55**: without a base directory or a database nothing is done. -/
theorem C55_refused_partial {e : Env} {files : Text → Option Text} {argv : List Text} {is : List OptItem} {xs : List Text} {items : List RcItem} {rc : Rc}
    (h : Started e files argv is xs items rc)
    (hb : firstOf [e.get (bs "MAIRIX_FOLDER_BASE"), rc.base] = none ∨ firstOf [e.get (bs "MAIRIX_DATABASE"), rc.database] = none) :
    mainJob e files argv = .error (.exit 2) := by
  obtain ⟨o, ho, hj⟩ := started_job h
  rw [hj, override_eq e o rc h.noMaildirs]
  unfold jobOf
  rcases hb with hb | hb
  · simp only [hb]
  · simp only [hb]
    cases firstOf [e.get (bs "MAIRIX_FOLDER_BASE"), rc.base] <;> rfl

/-! Examples -/

def exOptItems : List OptItem := [.flag .augment, .mfolder (bs "x"), .rcFile (bs "/rc"), .mfolder (bs "out"), .flag .fast]
def exArgv : List Text := [bs "-a", bs "--mfolder", bs "x", bs "-f", bs "/rc", bs "-o", bs "out", bs "--fast-index", bs "--", bs "s:word", bs "-b"]

theorem exLine : CommandLine exOptItems [bs "s:word", bs "-b"] exArgv := by
  refine .opt (ws := [bs "-a"]) (.flag (by decide +kernel)) ?_
  refine .opt (ws := [bs "--mfolder", bs "x"]) (.mfolder (by decide +kernel)) ?_
  refine .opt (ws := [bs "-f", bs "/rc"]) (.rcFile (by decide +kernel)) ?_
  refine .opt (ws := [bs "-o", bs "out"]) (.mfolder (by decide +kernel)) ?_
  refine .opt (ws := [bs "--fast-index"]) (.flag (by decide +kernel)) ?_
  exact .dashes

/-- An environment with a database of its own. -/
def exEnv2 : Env := ⟨fun n => if n = bs "HOME" then some (bs "/home/u") else if n = bs "M_1" then some (bs "mail") else if n = bs "MAIRIX_DATABASE" then some (bs "/other") else none, bs "/root"⟩

def exRcFiles (n : Text) : Option Text := if n = bs "/rc" then some exRcText else none

theorem exFormats : FormatsOk exEnv2 exRcItems := by
  intro v hv
  have : v = bs "MBox" := by revert hv; decide +kernel +revert
  subst this
  obtain ⟨r, h1, h2, _⟩ := C31_expand exEnv2 (bs "MBox")
  have : r = bs "MBox" := by
    have := C31_plain exEnv2 (p := bs "MBox") (by decide +kernel) (by decide +kernel)
    rw [h1] at this; exact Except.ok.inj this
  exact ⟨.mbox, r, h2, by rw [this]; decide +kernel⟩

def exRc : Rc := { base := some (bs "/home/u/mail"), maildirs := some (bs "inbox:archive...:lists..."), mfolder := some (bs "mail"), database := some (bs "/db"), format := .mbox, skipChecks := true }

theorem exStarted : Started exEnv2 exRcFiles exArgv exOptItems [bs "s:word", bs "-b"] exRcItems exRc where
  line := exLine
  noMaildirs := by decide +kernel
  file := ⟨exRcText, by decide +kernel, exRc_writes⟩
  formats := exFormats
  means := by
    obtain ⟨rc, h1, h2⟩ := C54_settings_partial exEnv2 exRc_writes exFormats
    have : parseRcFile exEnv2 (some exRcText) = .ok exRc := by decide +kernel
    rw [this] at h1
    cases h1
    exact h2

example : mainJob exEnv2 exRcFiles exArgv = .ok (.search ⟨bs "/home/u/mail", some (bs "inbox:archive...:lists..."), none, none, none, false⟩ (bs "/other") (bs "out") .mbox false true false false
    [bs "s:word", bs "-b"]) :=
  C55_search_partial exStarted (by decide +kernel) (.inl (by simp)) (by decide +kernel) (by decide +kernel) (by decide +kernel) (.inl (by decide +kernel))

/-- **C55** fails for `MAIRIX_MAILDIR_FOLDERS`: the variable is tested, but another one, misspelt, is read; so the maildir folders of the configuration file are forgotten and those of the environment are not
taken. Here a search puts its results into the inbox itself: the check that should refuse it (C38) knows of no maildir. -/
theorem C55_environment_violation :
    let e : Env := ⟨fun n => if n = bs "MAIRIX_MAILDIR_FOLDERS" then some (bs "inbox") else none, bs "/root"⟩
    parseRcFile e (some (bs "base=/m\nmaildir=inbox\nmfolder=inbox\ndatabase=/db\n")) =
      .ok { base := some (bs "/m"), maildirs := some (bs "inbox"), mfolder := some (bs "inbox"), database := some (bs "/db") } ∧
    mainJob e (fun _ => some (bs "base=/m\nmaildir=inbox\nmfolder=inbox\ndatabase=/db\n")) [bs "word"] =
      .ok (.search ⟨bs "/m", none, none, none, none, false⟩ (bs "/db") (bs "inbox") .maildir false false false false [bs "word"]) ∧
    ∀ fs fuel, checkMfolder fs fuel ⟨bs "/m", none, none, none, none, false⟩ (bs "inbox") = .ok () := by
  refine ⟨by decide +kernel, by rfl, fun fs fuel => rfl⟩

/-- **C55** fails for a results folder that begins with a dot: the manual takes every name that begins with `/` or `.` for a path in its own right, the code only one that begins with `/` or `./`. -/
theorem C55_dot_violation : completeMfolder (bs "/m") (bs "../results") = bs "/m/../results" := by decide +kernel

end Mairix
