import Verif.Props.Disk

/-!
# C56, continued: making the folders, results in an mbox, and what goes wrong
-/

namespace Mairix
open Spec

/-- **C56**, making the folders: if they are there, nothing is done. -/
theorem C56_ready {d : Disk} {dir : Text} (h : ∀ sub ∈ [[], bs "/cur", bs "/new", bs "/tmp"], ∃ es, d.stat (dir ++ sub) = some (.dir es)) :
    maybeCreateMaildir d dir = .ok d ∧ ensureDir d dir = .ok d := by
  have key : ∀ sub ∈ [[], bs "/cur", bs "/new", bs "/tmp"], ensureDir d (dir ++ sub) = .ok d := by
    intro sub hs
    obtain ⟨es, he⟩ := h sub hs
    simp [ensureDir, directoryExists, he]
  have h0 := key [] (by simp)
  rw [List.append_nil] at h0
  refine ⟨?_, h0⟩
  simp only [maybeCreateMaildir, h0, key (bs "/cur") (by simp), key (bs "/new") (by simp), key (bs "/tmp") (by simp), bind, Except.bind]

/-- No file, link or device is changed; a directory has the same entries for all names but those in `N`, and keeps all its subdirectories. -/
structure Spec.Grown (N : List Text) (d e : Disk) : Prop where
  root : e.root = d.root
  cwd : e.cwd = d.cwd
  same : ∀ (i : Nat) (n : Node), d.nodes[i]? = some n → (∀ es, n ≠ .dir es) → e.nodes[i]? = some n
  dirs : ∀ (i : Nat) (es : List (Text × Nat)), d.nodes[i]? = some (Node.dir es) → ∃ es', e.nodes[i]? = some (Node.dir es') ∧
    (∀ nm, nm ∉ N → es'.lookup nm = es.lookup nm) ∧
    ∀ nm j fs, es.lookup nm = some j → d.nodes[j]? = some (Node.dir fs) → es'.lookup nm = some j

theorem Spec.Grown.refl (N : List Text) (d : Disk) : Grown N d d := ⟨rfl, rfl, fun _ _ h _ => h, fun _ es h => ⟨es, h, fun _ _ => rfl, fun _ _ _ h _ => h⟩⟩

theorem Spec.Grown.trans {N : List Text} {d e f : Disk} (a : Grown N d e) (b : Grown N e f) : Grown N d f := by
  refine ⟨b.root.trans a.root, b.cwd.trans a.cwd, fun i n h hn => b.same i n (a.same i n h hn) hn, fun i es h => ?_⟩
  obtain ⟨es1, h1, s1, t1⟩ := a.dirs i es h
  obtain ⟨es2, h2, s2, t2⟩ := b.dirs i es1 h1
  refine ⟨es2, h2, fun nm hn => (s2 nm hn).trans (s1 nm hn), fun nm j fs hl hd => ?_⟩
  obtain ⟨fs', hfs, _⟩ := a.dirs j fs hd
  exact t2 nm j fs' (t1 nm j fs hl hd) hfs

theorem Spec.Grown.mono {N M : List Text} {d e : Disk} (a : Grown N d e) (h : ∀ x ∈ N, x ∈ M) : Grown M d e := by
  refine ⟨a.root, a.cwd, a.same, fun i es hi => ?_⟩
  obtain ⟨es1, h1, s1, t1⟩ := a.dirs i es hi
  exact ⟨es1, h1, fun nm hn => s1 nm fun hx => hn (h nm hx), t1⟩

theorem lookup_filter_ne {name nm : Text} (h : nm ≠ name) (es : List (Text × Nat)) : (es.filter fun x => x.1 != name).lookup nm = es.lookup nm := by
  induction es with
  | nil => rfl
  | cons x es ih =>
    obtain ⟨a, i⟩ := x
    by_cases ha : a = name
    · subst ha
      have h1 : (a != a) = false := by simp
      have h2 : (nm == a) = false := by simpa using h
      simp only [List.filter_cons, h1, Bool.false_eq_true, if_false, ih, List.lookup_cons, h2]
    · have h1 : (a != name) = true := by simpa using ha
      simp only [List.filter_cons, h1, if_true, List.lookup_cons, ih]

theorem parent_last {d : Disk} {cur : Nat} {cs : List Text} {p : Nat} {name : Text} (h : d.parent cur cs = some (p, name)) : cs.getLast? = some name := by
  unfold Disk.parent at h
  split at h
  · cases h
  · rename_i nm hl
    cases hw : d.walk d.steps cur cs.dropLast with
    | none => simp [hw] at h
    | some q => simp [hw] at h; rw [hl, h.2]

theorem grown_unlink (d : Disk) (path : Text) : Grown (comps path).getLast?.toList d (d.unlink path) := by
  unfold Disk.unlink
  split
  · exact Grown.refl _ d
  · rename_i p name hp
    have hl := parent_last hp
    split
    · exact Grown.refl _ d
    · rename_i i he
      have key : (∀ es, d.nodes[i]? ≠ some (.dir es)) → Grown (comps path).getLast?.toList d (d.removeEntry p name) := by
        intro hnd
        unfold Disk.removeEntry
        split
        · rename_i es hes
          refine ⟨rfl, rfl, fun j n hj hn => ?_, fun j fs hj => ?_⟩
          · have : p ≠ j := by
              rintro rfl
              rw [hes] at hj
              exact hn es (Option.some.inj hj).symm
            simp [Disk.put, List.getElem?_set_ne this, hj]
          · by_cases hpj : p = j
            · subst hpj
              rw [hes] at hj
              cases hj
              refine ⟨_, put_get hes, fun nm hnm => lookup_filter_ne (by rintro rfl; simp [hl] at hnm) es, fun nm j gs hlk hd => ?_⟩
              by_cases hnm : nm = name
              · subst hnm
                simp only [Disk.entry, hes] at he
                rw [he] at hlk
                cases hlk
                exact absurd hd (hnd gs)
              · rw [lookup_filter_ne hnm]; exact hlk
            · exact ⟨fs, by simp [Disk.put, List.getElem?_set_ne hpj, hj], fun _ _ => rfl, fun _ _ _ h _ => h⟩
        · exact Grown.refl _ d
      cases hi : d.nodes[i]? with
      | none => exact key (by rw [hi]; simp)
      | some n =>
        cases n with
        | dir es => exact Grown.refl _ d
        | _ => exact key (by rw [hi]; simp)

theorem grown_make {d e : Disk} {path : Text} {n : Nat → Node} (h : d.make path n = some e) : Grown (comps path).getLast?.toList d e := by
  unfold Disk.make at h
  split at h
  · cases h
  · rename_i p name hp
    have hl := parent_last hp
    split at h
    · rename_i hf
      cases h
      unfold Disk.free at hf
      split at hf
      · rename_i es hes
        have hnone : es.lookup name = none := by simpa using hf
        have he : d.create p name (n p) = d.added p es name d.nodes.length [n p] := by
          simp only [Disk.create, Disk.addEntry, getElem?_append_some hes, Disk.put, Disk.added]
        rw [he]
        refine ⟨rfl, rfl, fun j m hj hn => ?_, fun j fs hj => ?_⟩
        · have : p ≠ j := by
            rintro rfl
            rw [hes] at hj
            exact hn es (Option.some.inj hj).symm
          exact added_get_ne this (getElem?_append_some hj)
        · by_cases hpj : p = j
          · subst hpj
            rw [hes] at hj
            cases hj
            refine ⟨_, added_get hes name _ _, fun nm hnm => ?_, fun nm j gs hlk hd => ?_⟩
            · have : nm ≠ name := by rintro rfl; simp [hl] at hnm
              exact lookup_more (by simpa using Ne.symm this)
            · rw [lookup_append, hlk]; rfl
          · exact ⟨fs, added_get_ne hpj (getElem?_append_some hj), fun _ _ => rfl, fun _ _ _ h _ => h⟩
      · cases hf
    · cases h

theorem grown_ensureDir {d e : Disk} {path : Text} (h : ensureDir d path = .ok e) : Grown (comps path).getLast?.toList d e := by
  unfold ensureDir directoryExists at h
  cases hs : d.stat path with
  | none =>
    simp only [hs] at h
    cases hm : d.mkdir path with
    | none => simp [hm] at h
    | some e' =>
      simp [hm] at h
      subst h
      exact grown_make hm
  | some n =>
    have key : ∀ {e' : Disk}, (d.unlink path).mkdir path = some e' → Grown (comps path).getLast?.toList d e' := fun hm => (grown_unlink d path).trans (grown_make hm)
    cases n with
    | dir es =>
      simp [hs] at h
      subst h
      exact Grown.refl _ d
    | _ =>
      simp only [hs] at h
      cases hm : (d.unlink path).mkdir path with
      | none => simp [hm] at h
      | some e' =>
        simp [hm] at h
        subst h
        exact key hm

/-- **C56**, making the folders: no file's contents and no link is changed, every directory keeps its subdirectories and all entries with names other than those of the results folder and
its three subfolders. -/
theorem C56_made {d e : Disk} {dir name : Text} (hn : (comps dir).getLast? = some name) (h : maybeCreateMaildir d dir = .ok e) :
    Grown [name, bs "cur", bs "new", bs "tmp"] d e := by
  simp only [maybeCreateMaildir, bind, Except.bind] at h
  have sub : ∀ (s : Text) (t : Text), s = 0x2f :: t → NameOk t → t ∈ [bs "cur", bs "new", bs "tmp"] → ∀ {d e : Disk}, ensureDir d (dir ++ s) = .ok e →
      Grown [name, bs "cur", bs "new", bs "tmp"] d e := by
    intro s t hs ht hm d e he
    have := grown_ensureDir he
    rw [hs, show dir ++ 0x2f :: t = child dir t from rfl, comps_child dir ht] at this
    refine this.mono fun x hx => ?_
    simp only [List.getLast?_append, List.getLast?_singleton, Option.some_or, Option.toList_some, List.mem_singleton] at hx
    subst hx
    exact List.mem_cons_of_mem _ hm
  split at h
  · cases h
  · rename_i d1 h1
    split at h
    · cases h
    · rename_i d2 h2
      split at h
      · cases h
      · rename_i d3 h3
        have g1 := (grown_ensureDir h1).mono (M := [name, bs "cur", bs "new", bs "tmp"]) (by rw [hn]; simp)
        exact ((g1.trans (sub _ (bs "cur") (by decide) (by constructor <;> decide) (by simp) h2)).trans (sub _ (bs "new") (by decide) (by constructor <;> decide) (by simp) h3)).trans
          (sub _ (bs "tmp") (by decide) (by constructor <;> decide) (by simp) h)

/-- The same for an MH folder. -/
theorem C56_made_mh {d e : Disk} {dir name : Text} (hn : (comps dir).getLast? = some name) (h : ensureDir d dir = .ok e) : Grown [name] d e :=
  (grown_ensureDir h).mono (by rw [hn]; simp)

/-! ## Results in an mbox -/

/-- **C56**, results in an mbox `nm` of directory `sdir`, not augmented: the old one is replaced by a new file with the results, nothing else changes. (If there is a directory with this
name, the search stops and nothing changes at all.) -/
theorem C56_mbox {d : Disk} {sdir : Text} {p : Nat} {es : List (Text × Nat)} (f : Folder d [p] sdir p es) {nm : Text} (hn : NameOk nm) (l : List Found) :
    (∀ fs, d.lstat (child sdir nm) = some (.dir fs) → searchMbox d (child sdir nm) false l = .error (.exit 1)) ∧
    ((∀ fs, d.lstat (child sdir nm) ≠ some (.dir fs)) → ∃ d', searchMbox d (child sdir nm) false l = .ok d' ∧ Kept [p] d d' ∧
      d'.lstat (child sdir nm) = some (.file (mboxOutput l)) ∧
      ∀ a, NameOk a → a ≠ nm → d'.lookup (child sdir a) = d.lookup (child sdir a)) := by
  constructor
  · intro fs h
    unfold Disk.lstat at h
    rw [f.lookup hn] at h
    cases hl : es.lookup nm with
    | none => rw [hl] at h; cases h
    | some i =>
      rw [hl] at h
      dsimp only at h
      have hu : d.unlink (child sdir nm) = d := by
        simp only [Disk.unlink, f.parent hn, f.entry, hl, h]
      have hw : d.write (child sdir nm) true (mboxOutput l) = none := by
        simp only [Disk.write, place_eq f hn (fun j hj => by rw [hl] at hj; cases hj; exact ⟨_, h, trivial⟩), f.entry, hl, h]
      simp only [searchMbox, Bool.false_eq_true, if_false, hu, hw]
  · intro h
    have hu : d.unlink (child sdir nm) = d.put p (.dir (es.filter fun x => x.1 != nm)) := by
      cases hl : es.lookup nm with
      | none =>
        have : (es.filter fun x => x.1 != nm) = es := by
          rw [List.filter_eq_self]
          intro x hx
          have : x.1 ≠ nm := fun he => lookup_none_iff.1 hl (he ▸ List.mem_map_of_mem hx)
          simpa using this
        rw [this, put_self f.dir]
        simp only [Disk.unlink, f.parent hn, f.entry, hl]
      | some i =>
        have hnd : ∀ fs, d.nodes[i]? ≠ some (.dir fs) := by
          intro fs hi
          refine h fs ?_
          simp only [Disk.lstat, f.lookup hn, hl, hi]
        unfold Disk.unlink
        simp only [f.parent hn, f.entry, hl]
        cases hi : d.nodes[i]? with
        | none => simp only [Disk.removeEntry, f.dir]
        | some n =>
          cases n with
          | dir fs => exact absurd hi (hnd fs)
          | _ => simp only [Disk.removeEntry, f.dir]
    have f1 := f.filter fun x => x.1 != nm
    have hnone : (es.filter fun x => x.1 != nm).lookup nm = none := by
      rw [lookup_none_iff]
      intro hm
      obtain ⟨x, hx, he⟩ := List.mem_map.1 hm
      have := (List.mem_filter.1 hx).2
      simp [he] at this
    have hw := write_new f1 hn hnone true (mboxOutput l)
    obtain ⟨es', f2, _⟩ := folder_added f1 hn hnone (i := (d.put p (.dir (es.filter fun x => x.1 != nm))).nodes.length) (extra := [.file (mboxOutput l)]) ⟨.file (mboxOutput l), by simp⟩ f1
    have he := f2.dir.symm.trans (added_get f1.dir nm (d.put p (.dir (es.filter fun x => x.1 != nm))).nodes.length [.file (mboxOutput l)])
    rw [Option.some.injEq, Node.dir.injEq] at he
    rw [he] at f2
    refine ⟨_, by simp only [searchMbox, Bool.false_eq_true, if_false, hu, hw]; rfl, (kept_put f.mem f.dir).trans (kept_added f1.mem f1.dir nm _ _), ?_, ?_⟩
    · unfold Disk.lstat
      rw [f2.lookup hn, lookup_append, hnone]
      have h0 := (List.getElem?_eq_some_iff.1 f1.dir).1
      simp only [List.lookup, beq_self_eq_true, Option.none_or]
      exact added_get_ne (by omega) (by simp)
    · intro a ha hne
      rw [f2.lookup ha, f.lookup ha, lookup_more (by simpa using Ne.symm hne), lookup_filter_ne hne]

/-- **C56**, results in an mbox, augmented: the results are appended to the file that is there, or a new file is made; nothing else changes. (A link there is followed.) -/
theorem C56_augment_mbox_partial {d : Disk} {sdir : Text} {p : Nat} {es : List (Text × Nat)} (f : Folder d [p] sdir p es) {nm : Text} (hn : NameOk nm) (l : List Found) :
    (∀ i old, d.lookup (child sdir nm) = some i → d.nodes[i]? = some (.file old) →
      ∃ d', searchMbox d (child sdir nm) true l = .ok d' ∧ d'.nodes[i]? = some (.file (old ++ mboxOutput l)) ∧ ∀ j, j ≠ i → d'.nodes[j]? = d.nodes[j]?) ∧
    (d.lookup (child sdir nm) = none → ∃ d', searchMbox d (child sdir nm) true l = .ok d' ∧ Kept [p] d d' ∧ d'.lstat (child sdir nm) = some (.file (mboxOutput l))) := by
  constructor
  · intro i old hlk hi
    rw [f.lookup hn] at hlk
    have hp : d.place d.steps (d.start d.cwd (child sdir nm)) (comps (child sdir nm)) = some (p, nm) := by
      have := f.steps
      cases hs : d.steps with
      | zero => omega
      | succ k =>
        unfold Disk.place
        simp only [f.parent hn, f.entry, hlk, hi]
    refine ⟨d.put i (.file (old ++ mboxOutput l)), ?_, put_get hi, fun j hj => ?_⟩
    · simp only [searchMbox, if_true, Disk.write, hp, f.entry, hlk, hi]
    · simp [Disk.put, List.getElem?_set_ne (Ne.symm hj)]
  · intro hlk
    rw [f.lookup hn] at hlk
    have hw := write_new f hn hlk true (mboxOutput l)
    obtain ⟨es', f2, _⟩ := folder_added f hn hlk (i := d.nodes.length) (extra := [.file (mboxOutput l)]) ⟨.file (mboxOutput l), by simp⟩ f
    have he := f2.dir.symm.trans (added_get f.dir nm d.nodes.length [.file (mboxOutput l)])
    rw [Option.some.injEq, Node.dir.injEq] at he
    rw [he] at f2
    refine ⟨_, by simp only [searchMbox, if_true, hw]; rfl, kept_added f.mem f.dir _ _ _, ?_⟩
    unfold Disk.lstat
    rw [f2.lookup hn, lookup_append, hlk]
    have h0 := (List.getElem?_eq_some_iff.1 f.dir).1
    simp only [List.lookup, beq_self_eq_true, Option.none_or]
    exact added_get_ne (by omega) (by simp)

/-! ## Examples, and what goes wrong -/

/-- A disk with mail in `/mail` and a results maildir `/r`; in its `new` there are a subdirectory, an old link and an old copy. -/
def exampleDisk : Disk :=
  { nodes := [
      .dir [(bs ".", 0), (bs "..", 0), (bs "mail", 1), (bs "r", 2)],
      .dir [(bs ".", 1), (bs "..", 0), (bs "1", 6), (bs "2", 7)],
      .dir [(bs ".", 2), (bs "..", 0), (bs "new", 3), (bs "cur", 4), (bs "tmp", 5)],
      .dir [(bs ".", 3), (bs "..", 2), (bs "123456789.4.mairix", 8), (bs "123456789.5.mairix", 9)],
      .dir [(bs ".", 4), (bs "..", 2)],
      .dir [(bs ".", 5), (bs "..", 2)],
      .file (bs "Subject: a"),
      .file (bs "Subject: b"),
      .link (bs "/mail/2"),
      .file (bs "Subject: c")],
    root := 0, cwd := 0, steps := 50 }

def exampleResults : List (Nat × DbMsg × Source) :=
  [(4, { typeAndFlags := DB_MSG_FILE, path := bs "/mail/1", mbix := 0, msgix := 0, mtime := 0, size := 0, date := 0, tid := 0 }, ⟨[], none⟩),
   (7, { typeAndFlags := DB_MSG_MBOX, path := [], mbix := 0, msgix := 0, mtime := 0, size := 0, date := 0, tid := 0 }, ⟨bs "/box", some (bs "Subject: d\n")⟩)]

theorem exampleDisk_new : Folder exampleDisk [3, 4] (bs "/r" ++ bs "/new") 3 [(bs ".", 3), (bs "..", 2), (bs "123456789.4.mairix", 8), (bs "123456789.5.mairix", 9)] where
  nonempty := by decide
  steps := by decide
  mem := by decide
  route := by
    rw [show exampleDisk.start exampleDisk.cwd (bs "/r" ++ bs "/new") = 0 from by decide +kernel, show comps (bs "/r" ++ bs "/new") = [bs "r", bs "new"] from by decide +kernel,
      show exampleDisk.steps = 48 + 1 + 1 from rfl]
    exact .step (i := 2) (x := .dir [(bs ".", 2), (bs "..", 0), (bs "new", 3), (bs "cur", 4), (bs "tmp", 5)]) (by decide) (by decide +kernel) rfl (by simp)
      (.step (i := 3) (x := .dir [(bs ".", 3), (bs "..", 2), (bs "123456789.4.mairix", 8), (bs "123456789.5.mairix", 9)]) (by decide) (by decide +kernel) rfl (by simp) .done)
  dir := rfl
  names := by decide +kernel
  ok := by simp only [NameOk]; decide +kernel
  inodes := by
    intro x hx
    simp only [List.mem_cons, List.not_mem_nil, or_false] at hx
    rcases hx with rfl | rfl | rfl | rfl <;> exact ⟨_, rfl⟩

theorem exampleDisk_cur : Folder exampleDisk [3, 4] (bs "/r" ++ bs "/cur") 4 [(bs ".", 4), (bs "..", 2)] where
  nonempty := by decide
  steps := by decide
  mem := by decide
  route := by
    rw [show exampleDisk.start exampleDisk.cwd (bs "/r" ++ bs "/cur") = 0 from by decide +kernel, show comps (bs "/r" ++ bs "/cur") = [bs "r", bs "cur"] from by decide +kernel,
      show exampleDisk.steps = 48 + 1 + 1 from rfl]
    exact .step (i := 2) (x := .dir [(bs ".", 2), (bs "..", 0), (bs "new", 3), (bs "cur", 4), (bs "tmp", 5)]) (by decide) (by decide +kernel) rfl (by simp)
      (.step (i := 4) (x := .dir [(bs ".", 4), (bs "..", 2)]) (by decide) (by decide +kernel) rfl (by simp) .done)
  dir := rfl
  names := by decide +kernel
  ok := by simp only [NameOk]; decide +kernel
  inodes := by
    intro x hx
    simp only [List.mem_cons, List.not_mem_nil, or_false] at hx
    rcases hx with rfl | rfl <;> exact ⟨_, rfl⟩

/-- The hypotheses of `C56_maildir` and `C56_augment_maildir_partial` hold here. -/
example : maybeCreateMaildir exampleDisk (bs "/r") = .ok exampleDisk ∧ (exampleResults.map (·.1)).Nodup ∧ (∀ x ∈ exampleResults, x.1 < 2 ^ 31) ∧
    (∀ x ∈ exampleResults, x.2.1.type ≠ DB_MSG_FILE → (maildirName (bs "/r") x.1 x.2.1).toOption.bind (fun t => t.bind exampleDisk.lstat) = none) ∧
    ∃ d', searchMaildir exampleDisk (bs "/r") false false exampleResults = .ok d' ∧ d'.lstat (bs "/r/cur/123456789.4.mairix") = some (.link (bs "/mail/1")) ∧
      d'.lstat (bs "/r/new/123456789.7.mairix") = some (.file (bs "X-source-folder: /box\nSubject: d")) ∧
      d'.lstat (bs "/r/new/123456789.4.mairix") = none ∧ d'.lstat (bs "/r/new/123456789.5.mairix") = none ∧ d'.nodes[7]? = some (.file (bs "Subject: b")) := by
  refine ⟨by decide +kernel, by decide, by decide, by decide +kernel, ?_⟩
  exact ⟨((searchMaildir exampleDisk (bs "/r") false false exampleResults).toOption.getD exampleDisk), by decide +kernel, by decide +kernel, by decide +kernel, by decide +kernel,
    by decide +kernel, by decide +kernel⟩

/-- The folders do not need to be there. -/
example : ∃ d, maybeCreateMaildir exampleDisk (bs "/s") = .ok d ∧ d.stat (bs "/s/new") = some (.dir [(bs ".", 12), (bs "..", 10)]) ∧ (comps (bs "/s")).getLast? = some (bs "s") :=
  ⟨((maybeCreateMaildir exampleDisk (bs "/s")).toOption.getD exampleDisk), by decide +kernel, by decide +kernel, by decide +kernel⟩

/-- A folder for `C56_mh` and `C56_mbox`. -/
example : ensureDir exampleDisk (bs "/mail") = .ok exampleDisk ∧ NameOk (bs "box") ∧
    Folder exampleDisk [1] (bs "/mail") 1 [(bs ".", 1), (bs "..", 0), (bs "1", 6), (bs "2", 7)] := by
  refine ⟨by decide +kernel, by constructor <;> decide, by decide, by decide, by decide, ?_, rfl, by decide +kernel, by simp only [NameOk]; decide +kernel, ?_⟩
  · rw [show exampleDisk.start exampleDisk.cwd (bs "/mail") = 0 from by decide +kernel, show comps (bs "/mail") = [bs "mail"] from by decide +kernel,
      show exampleDisk.steps = 49 + 1 from rfl]
    exact .step (i := 1) (x := .dir [(bs ".", 1), (bs "..", 0), (bs "1", 6), (bs "2", 7)]) (by decide) (by decide +kernel) rfl (by simp) .done
  · intro x hx
    simp only [List.mem_cons, List.not_mem_nil, or_false] at hx
    rcases hx with rfl | rfl | rfl | rfl <;> exact ⟨_, rfl⟩

/-- A message in a file, for an MH search. -/
def exampleFileMsg (path : Text) : DbMsg × Source :=
  ({ typeAndFlags := DB_MSG_FILE, path := path, mbix := 0, msgix := 0, mtime := 0, size := 0, date := 0, tid := 0 }, ⟨[], none⟩)

/-- A message in an mbox. -/
def exampleMboxMsg : DbMsg × Source :=
  ({ typeAndFlags := DB_MSG_MBOX, path := [], mbix := 0, msgix := 0, mtime := 0, size := 0, date := 0, tid := 0 }, ⟨bs "/box", some (bs "Subject: d\n")⟩)

/-- **C56 fails** for augmented searches in MH format: the names begin at 1 again, so after a search that found `/mail/1`, an augmented search that finds a message of an mbox opens the link
`1` for writing — and the user's message `/mail/1` is overwritten. -/
theorem C56_augment_violation :
    ∃ (d d1 d2 : Disk), searchMh d (bs "/h") false false [exampleFileMsg (bs "/mail/1")] = .ok d1 ∧ searchMh d1 (bs "/h") true false [exampleMboxMsg] = .ok d2 ∧
      d.stat (bs "/mail/1") = some (.file (bs "Subject: a")) ∧ d1.stat (bs "/mail/1") = some (.file (bs "Subject: a")) ∧
      d2.stat (bs "/mail/1") = some (.file (bs "X-source-folder: /box\nSubject: d")) :=
  ⟨exampleDisk, (searchMh exampleDisk (bs "/h") false false [exampleFileMsg (bs "/mail/1")]).toOption.getD exampleDisk,
    (searchMh ((searchMh exampleDisk (bs "/h") false false [exampleFileMsg (bs "/mail/1")]).toOption.getD exampleDisk) (bs "/h") true false [exampleMboxMsg]).toOption.getD exampleDisk,
    by decide +kernel, by decide +kernel, by decide +kernel, by decide +kernel, by decide +kernel⟩

/-- **C56 fails** in that a new result may not be added: a message that an augmented MH search finds is not in the folder after it. -/
theorem C56_augment_lost_violation :
    ∃ (d d1 : Disk), searchMh d (bs "/h") false false [exampleFileMsg (bs "/mail/1")] = .ok d1 ∧ searchMh d1 (bs "/h") true false [exampleFileMsg (bs "/mail/2")] = .ok d1 ∧
      d1.lstat (bs "/h/1") = some (.link (bs "/mail/1")) :=
  ⟨exampleDisk, (searchMh exampleDisk (bs "/h") false false [exampleFileMsg (bs "/mail/1")]).toOption.getD exampleDisk, by decide +kernel, by decide +kernel, by decide +kernel⟩

/-- A results path that names a file, say an mbox that is not indexed: the file is removed to make the folder (search.c:1363-1366). -/
theorem C56_file_removed : ∃ d, ensureDir exampleDisk (bs "/mail/1") = .ok d ∧ exampleDisk.lookup (bs "/mail/1") = some 6 ∧ (∀ (p : Nat) es nm, d.nodes[p]? = some (Node.dir es) → (nm, 6) ∉ es) := by
  refine ⟨(ensureDir exampleDisk (bs "/mail/1")).toOption.getD exampleDisk, by decide +kernel, by decide +kernel, ?_⟩
  intro p es nm hp
  have key : ∀ p, p < ((ensureDir exampleDisk (bs "/mail/1")).toOption.getD exampleDisk).nodes.length →
      (match ((ensureDir exampleDisk (bs "/mail/1")).toOption.getD exampleDisk).nodes[p]? with | some (.dir es) => es.all fun x => x.2 != 6 | _ => true) = true := by decide +kernel
  have := key p (List.getElem?_eq_some_iff.1 hp).1
  rw [hp] at this
  intro hm
  have := List.all_eq_true.1 this _ hm
  simp at this

end Mairix
