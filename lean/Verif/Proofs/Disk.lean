import Verif.Spec.Disk
import Verif.Proofs.Output

namespace Mairix
open Spec

/-! ## Paths -/

theorem splitSlash_ne (t : Text) : splitSlash t ≠ [] := by
  induction t with
  | nil => simp [splitSlash]
  | cons c t ih =>
    simp only [splitSlash]
    split
    · simp
    · split <;> simp

theorem splitSlash_append (a b : Text) : splitSlash (a ++ 0x2f :: b) = splitSlash a ++ splitSlash b := by
  induction a with
  | nil => simp [splitSlash]
  | cons c a ih =>
    by_cases hc : c = 0x2f
    · simp [splitSlash, hc, ih]
    · simp only [List.cons_append, splitSlash, if_neg hc, ih]
      cases h : splitSlash a with
      | nil => exact absurd h (splitSlash_ne a)
      | cons x xs => simp

theorem splitSlash_name {a : Text} (h : 0x2f ∉ a) : splitSlash a = [a] := by
  induction a with
  | nil => rfl
  | cons c a ih =>
    simp only [List.mem_cons, not_or] at h
    simp only [splitSlash, if_neg (Ne.symm h.1), ih h.2]

theorem comps_child (a : Text) {b : Text} (hb : NameOk b) : comps (child a b) = comps a ++ [b] := by
  have : (b.isEmpty) = false := by cases b; exact absurd rfl hb.1; rfl
  simp [comps, child, splitSlash_append, splitSlash_name hb.2, this]

theorem start_child (d : Disk) (cur : Nat) {a : Text} (h : a ≠ []) (b : Text) : d.start cur (child a b) = d.start cur a := by
  cases a with
  | nil => exact absurd rfl h
  | cons c a => rfl

/-! ## Routes -/

theorem Spec.Route.walk {d : Disk} {R : List Nat} {n cur : Nat} {cs : List Text} {r : Nat} (h : Route d R n cur cs r) : d.walk n cur cs = some r := by
  induction h with
  | @done n cur => cases n <;> rfl
  | @step n cur c cs i x r _ he hx hl _ ih =>
    simp only [Disk.walk, he, hx]
    cases x with
    | link t => exact absurd rfl (hl t)
    | _ => exact ih
  | link _ he hx _ ih => simp only [Disk.walk, he, hx]; exact ih

theorem Spec.Kept.entry {R : List Nat} {d e : Disk} (k : Kept R d e) {p : Nat} (hp : p ∉ R) {name : Text} {i : Nat} (h : d.entry p name = some i) : e.entry p name = some i := by
  unfold Disk.entry at h ⊢
  cases hn : d.nodes[p]? with
  | none => simp [hn] at h
  | some n => rw [k.same p n hn (fun h => absurd h hp)]; simpa [hn] using h

theorem Spec.Kept.start {R : List Nat} {d e : Disk} (k : Kept R d e) (cur : Nat) (p : Text) : e.start cur p = d.start cur p := by
  simp [Disk.start, k.root]

theorem Spec.Kept.refl (R : List Nat) (d : Disk) : Kept R d d := ⟨rfl, rfl, rfl, fun _ _ h _ => h, fun _ es h => ⟨es, h⟩⟩

theorem Spec.Kept.trans {R : List Nat} {d e f : Disk} (a : Kept R d e) (b : Kept R e f) : Kept R d f := by
  refine ⟨b.root.trans a.root, b.cwd.trans a.cwd, b.steps.trans a.steps, fun i n h hr => b.same i n (a.same i n h hr) hr, fun i es h => ?_⟩
  obtain ⟨es', h'⟩ := a.dirs i es h
  exact b.dirs i es' h'

theorem Spec.Kept.notLink {R : List Nat} {d e : Disk} (k : Kept R d e) {i : Nat} {x : Node} (h : d.nodes[i]? = some x) (hl : ∀ t, x ≠ .link t) :
    ∃ y, e.nodes[i]? = some y ∧ ∀ t, y ≠ .link t := by
  cases x with
  | dir es => obtain ⟨es', h'⟩ := k.dirs i es h; exact ⟨_, h', by simp⟩
  | file t => exact ⟨_, k.same i _ h (by simp), by simp⟩
  | other => exact ⟨_, k.same i _ h (by simp), by simp⟩
  | link t => exact absurd rfl (hl t)

theorem Spec.Route.kept {d e : Disk} {R : List Nat} (k : Kept R d e) {n cur : Nat} {cs : List Text} {r : Nat} (h : Route d R n cur cs r) : Route e R n cur cs r := by
  induction h with
  | done => exact .done
  | step hR he hx hl _ ih =>
    obtain ⟨y, hy, hl'⟩ := k.notLink hx hl
    exact .step hR (k.entry hR he) hy hl' ih
  | @link n cur c cs i t r hR he hx _ ih => exact .link hR (k.entry hR he) (k.same _ _ hx (by simp)) (by rw [k.start]; exact ih)

theorem Spec.Folder.kept {d e : Disk} {R : List Nat} {sdir : Text} {r : Nat} {es es' : List (Text × Nat)} (f : Folder d R sdir r es) (k : Kept R d e)
    (hd : e.nodes[r]? = some (.dir es')) (hn : (es'.map (·.1)).Nodup) (ho : ∀ x ∈ es', NameOk x.1) (hi : ∀ x ∈ es', ∃ n, e.nodes[x.2]? = some n) : Folder e R sdir r es' :=
  ⟨f.nonempty, by rw [k.steps]; exact f.steps, f.mem, by rw [k.steps, k.start, k.cwd]; exact f.route.kept k, hd, hn, ho, hi⟩

theorem Spec.Folder.parent {d : Disk} {R : List Nat} {sdir : Text} {r : Nat} {es : List (Text × Nat)} (f : Folder d R sdir r es) {name : Text} (hn : NameOk name) :
    d.parent (d.start d.cwd (child sdir name)) (comps (child sdir name)) = some (r, name) := by
  rw [comps_child sdir hn, start_child d _ f.nonempty]
  simp [Disk.parent, f.route.walk]

theorem Spec.Folder.entry {d : Disk} {R : List Nat} {sdir : Text} {r : Nat} {es : List (Text × Nat)} (f : Folder d R sdir r es) (name : Text) :
    d.entry r name = es.lookup name := by
  simp [Disk.entry, f.dir]

theorem Spec.Folder.lookup {d : Disk} {R : List Nat} {sdir : Text} {r : Nat} {es : List (Text × Nat)} (f : Folder d R sdir r es) {name : Text} (hn : NameOk name) :
    d.lookup (child sdir name) = es.lookup name := by
  simp only [Disk.lookup, f.parent hn, f.entry]

/-! ## Association lists -/

theorem lookup_of_mem {es : List (Text × Nat)} (h : (es.map (·.1)).Nodup) {x : Text × Nat} (hx : x ∈ es) : es.lookup x.1 = some x.2 := by
  induction es with
  | nil => cases hx
  | cons y es ih =>
    rw [List.map_cons, List.nodup_cons] at h
    obtain ⟨a, b⟩ := y
    rcases List.mem_cons.1 hx with rfl | hx
    · simp [List.lookup]
    · have : x.1 ≠ a := fun he => h.1 (he ▸ List.mem_map_of_mem (f := (·.1)) hx)
      have hb : (x.1 == a) = false := by simpa using this
      rw [List.lookup_cons, hb]; exact ih h.2 hx

theorem mem_of_lookup {es : List (Text × Nat)} {a : Text} {i : Nat} (h : es.lookup a = some i) : (a, i) ∈ es := by
  induction es with
  | nil => simp at h
  | cons y es ih =>
    obtain ⟨b, j⟩ := y
    rw [List.lookup_cons] at h
    split at h
    · rename_i he
      have : a = b := by simpa using he
      subst this; simp at h; simp [h]
    · exact List.mem_cons_of_mem _ (ih h)

theorem lookup_append (es fs : List (Text × Nat)) (a : Text) : (es ++ fs).lookup a = (es.lookup a).or (fs.lookup a) := by
  induction es with
  | nil => simp
  | cons y es ih =>
    obtain ⟨b, j⟩ := y
    simp only [List.cons_append, List.lookup_cons, ih]
    split <;> simp

theorem lookup_none_iff {es : List (Text × Nat)} {a : Text} : es.lookup a = none ↔ a ∉ es.map (·.1) := by
  induction es with
  | nil => simp
  | cons y es ih =>
    obtain ⟨b, j⟩ := y
    simp only [List.lookup_cons, List.map_cons, List.mem_cons, not_or]
    split
    · rename_i he
      have : a = b := by simpa using he
      simp [this]
    · rename_i he
      have : a ≠ b := by simpa using he
      simp [ih, this]

/-! ## One directory changed -/

theorem kept_put {R : List Nat} {d : Disk} {r : Nat} (hr : r ∈ R) {es es' : List (Text × Nat)} (h : d.nodes[r]? = some (.dir es)) : Kept R d (d.put r (.dir es')) := by
  refine ⟨rfl, rfl, rfl, fun i n hi hR => ?_, fun i fs hi => ?_⟩
  · have : r ≠ i := by
      rintro rfl
      rw [h] at hi
      exact hR hr es (Option.some.inj hi).symm
    simp [Disk.put, List.getElem?_set_ne this, hi]
  · by_cases he : r = i
    · subst he
      exact ⟨es', by simp [Disk.put, List.getElem?_set, (List.getElem?_eq_some_iff.1 h).1]⟩
    · exact ⟨fs, by simp [Disk.put, List.getElem?_set_ne he, hi]⟩

theorem put_get {d : Disk} {r : Nat} {n m : Node} (h : d.nodes[r]? = some n) : (d.put r m).nodes[r]? = some m := by
  simp [Disk.put, List.getElem?_set, (List.getElem?_eq_some_iff.1 h).1]

theorem put_put (d : Disk) (r : Nat) (n m : Node) : (d.put r n).put r m = d.put r m := by
  simp [Disk.put]

theorem put_self {d : Disk} {r : Nat} {n : Node} (h : d.nodes[r]? = some n) : d.put r n = d := by
  obtain ⟨hl, he⟩ := List.getElem?_eq_some_iff.1 h
  subst he
  cases d
  simp [Disk.put]

/-! ## Clearing -/

/-- A file or a link. -/
def removable (d : Disk) (i : Nat) : Bool :=
  match d.nodes[i]? with
  | some (.link _) => true
  | some (.file _) => true
  | _ => false

theorem removable_put {d : Disk} {r : Nat} {es es' : List (Text × Nat)} (h : d.nodes[r]? = some (.dir es)) (i : Nat) : removable (d.put r (.dir es')) i = removable d i := by
  by_cases he : r = i
  · subst he
    simp only [removable, put_get h, h]
  · simp [removable, Disk.put, List.getElem?_set_ne he]

theorem clearOne_eq {d : Disk} {R : List Nat} {sdir : Text} {r : Nat} {es : List (Text × Nat)} (f : Folder d R sdir r es) {name : Text} (hn : NameOk name) :
    clearOne d (child sdir name) = d.put r (.dir (es.filter fun x => !(x.1 == name && removable d x.2))) := by
  have hfilter : ∀ i, es.lookup name = some i → (es.filter fun x => !(x.1 == name && removable d x.2)) = es.filter fun x => !(x.1 == name && removable d i) := by
    intro i hl
    apply List.filter_congr
    intro x hx
    by_cases he : x.1 = name
    · have := lookup_of_mem f.names hx
      rw [he, hl] at this
      simp [Option.some.inj this]
    · have hb : (x.1 == name) = false := by simpa using he
      simp [hb]
  unfold clearOne Disk.lstat
  rw [f.lookup hn]
  cases hl : es.lookup name with
  | none =>
    have : (es.filter fun x => !(x.1 == name && removable d x.2)) = es := by
      rw [List.filter_eq_self]
      intro x hx
      have : x.1 ≠ name := fun he => lookup_none_iff.1 hl (he ▸ List.mem_map_of_mem hx)
      have hb : (x.1 == name) = false := by simpa using this
      simp [hb]
    rw [this, put_self f.dir]
  | some i =>
    rw [hfilter i hl]
    have hun : (∀ es', d.nodes[i]? ≠ some (.dir es')) → d.unlink (child sdir name) = d.put r (.dir (es.filter fun x => x.1 != name)) := by
      intro hd
      unfold Disk.unlink
      simp only [f.parent hn, f.entry, hl]
      cases hi : d.nodes[i]? with
      | none => simp only [Disk.removeEntry, f.dir]
      | some n =>
        cases n with
        | dir es' => exact absurd hi (hd es')
        | _ => simp only [Disk.removeEntry, f.dir]
    have hself : removable d i = false → d = d.put r (.dir (es.filter fun x => !(x.1 == name && removable d i))) := by
      intro h
      rw [h, show (es.filter fun x => !(x.1 == name && false)) = es from List.filter_eq_self.2 (by simp), put_self f.dir]
    dsimp only
    split
    · rename_i t hx
      rw [hun (by rw [hx]; simp)]
      simp [removable, hx, bne]
    · rename_i t hx
      rw [hun (by rw [hx]; simp)]
      simp [removable, hx, bne]
    · rename_i h1 h2
      apply hself
      unfold removable
      split
      · rename_i h; exact absurd h (h1 _)
      · rename_i h; exact absurd h (h2 _)
      · rfl

theorem Spec.Folder.filter {d : Disk} {R : List Nat} {sdir : Text} {r : Nat} {es : List (Text × Nat)} (f : Folder d R sdir r es) (p : Text × Nat → Bool) :
    Folder (d.put r (.dir (es.filter p))) R sdir r (es.filter p) := by
  have k := kept_put (es' := es.filter p) f.mem f.dir
  refine f.kept k (put_get f.dir) ((List.filter_sublist.map _).nodup f.names) (fun x hx => f.ok x (List.mem_filter.1 hx).1) (fun x hx => ?_)
  obtain ⟨n, hn⟩ := f.inodes x (List.mem_filter.1 hx).1
  cases n with
  | dir fs => obtain ⟨fs', h⟩ := k.dirs _ _ hn; exact ⟨_, h⟩
  | _ => exact ⟨_, k.same _ _ hn (by simp)⟩

theorem clear_foldl {R : List Nat} {sdir : Text} {r : Nat} (ns : List Text) (hns : ∀ a ∈ ns, NameOk a) :
    ∀ {d : Disk} {es : List (Text × Nat)}, Folder d R sdir r es →
      ns.foldl (fun d name => clearOne d (child sdir name)) d = d.put r (.dir (es.filter fun x => !(ns.contains x.1 && removable d x.2))) := by
  induction ns with
  | nil =>
    intro d es f
    rw [show (es.filter fun x => !(([] : List Text).contains x.1 && removable d x.2)) = es from List.filter_eq_self.2 (by simp), put_self f.dir]
    rfl
  | cons a ns ih =>
    intro d es f
    rw [List.foldl_cons, clearOne_eq f (hns a (by simp)), ih (fun b hb => hns b (by simp [hb])) (f.filter _), put_put, List.filter_filter]
    congr 2
    apply List.filter_congr
    intro x _
    rw [removable_put f.dir]
    by_cases h : x.1 = a
    · cases h1 : removable d x.2 <;> simp [h]
    · have hb : (x.1 == a) = false := by simpa using h
      cases h1 : removable d x.2 <;> simp [h]

/-- The folder after it was cleared. -/
theorem clearDir_eq {d : Disk} {R : List Nat} {sdir : Text} {r : Nat} {es : List (Text × Nat)} (f : Folder d R sdir r es) (w : Text → Bool) :
    clearDir d sdir w = d.put r (.dir (es.filter fun x => !(w x.1 && removable d x.2))) := by
  have hs : d.stat sdir = some (.dir es) := by
    have : sdir.isEmpty = false := by have := f.nonempty; cases sdir; exact absurd rfl this; rfl
    simp [Disk.stat, this, f.route.walk, f.dir]
  unfold clearDir
  rw [hs]
  dsimp only
  rw [clear_foldl _ (fun a ha => ?_) f]
  · congr 2
    apply List.filter_congr
    intro x hx
    have : (((es.map (·.1)).filter w).contains x.1) = w x.1 := by
      cases hw : w x.1
      · simp [hw]
      · simp only [List.contains_eq_mem, List.mem_filter, decide_eq_true_eq, hw, and_true]
        exact List.mem_map_of_mem hx
    rw [this]
  · obtain ⟨x, hx, rfl⟩ := List.mem_map.1 (List.mem_filter.1 ha).1
    exact f.ok x hx

/-! ## Delivering -/

/-- A new name `nm` for inode `i` in directory `r`, and new inodes. -/
def Disk.added (e : Disk) (r : Nat) (es : List (Text × Nat)) (nm : Text) (i : Nat) (extra : List Node) : Disk :=
  { e with nodes := (e.nodes ++ extra).set r (.dir (es ++ [(nm, i)])) }

theorem added_get {e : Disk} {r : Nat} {es : List (Text × Nat)} (h : e.nodes[r]? = some (.dir es)) (nm : Text) (i : Nat) (extra : List Node) :
    (e.added r es nm i extra).nodes[r]? = some (.dir (es ++ [(nm, i)])) := by
  have := (List.getElem?_eq_some_iff.1 h).1
  simp only [Disk.added, List.getElem?_set, List.length_append, if_true]
  rw [if_pos (by omega)]

theorem added_get_ne {e : Disk} {r j : Nat} {es : List (Text × Nat)} (hj : r ≠ j) {n : Node} {nm : Text} {i : Nat} {extra : List Node} (h : (e.nodes ++ extra)[j]? = some n) :
    (e.added r es nm i extra).nodes[j]? = some n := by
  simp only [Disk.added, List.getElem?_set_ne hj, h]

theorem getElem?_append_some {a b : List Node} {i : Nat} {n : Node} (h : a[i]? = some n) : (a ++ b)[i]? = some n := by
  rw [List.getElem?_append_left (List.getElem?_eq_some_iff.1 h).1, h]

theorem kept_added {R : List Nat} {e : Disk} {r : Nat} (hr : r ∈ R) {es : List (Text × Nat)} (h : e.nodes[r]? = some (.dir es)) (nm : Text) (i : Nat) (extra : List Node) :
    Kept R e (e.added r es nm i extra) := by
  refine ⟨rfl, rfl, rfl, fun j n hj hR => ?_, fun j fs hj => ?_⟩
  · have : r ≠ j := by
      rintro rfl
      rw [h] at hj
      exact hR hr es (Option.some.inj hj).symm
    exact added_get_ne this (getElem?_append_some hj)
  · by_cases he : r = j
    · subst he; exact ⟨_, added_get h nm i extra⟩
    · exact ⟨fs, added_get_ne he (getElem?_append_some hj)⟩

theorem Spec.Kept.inode {R : List Nat} {d e : Disk} (k : Kept R d e) {i : Nat} {n : Node} (h : d.nodes[i]? = some n) : ∃ m, e.nodes[i]? = some m := by
  cases n with
  | dir fs => obtain ⟨fs', h⟩ := k.dirs _ _ h; exact ⟨_, h⟩
  | _ => exact ⟨_, k.same _ _ h (by simp)⟩

theorem folder_added {R : List Nat} {e : Disk} {s sdir : Text} {r0 r : Nat} {es0 es : List (Text × Nat)} (f0 : Folder e R s r0 es0) {nm : Text} (hn : NameOk nm)
    (hl : es0.lookup nm = none) {i : Nat} {extra : List Node} (hi : ∃ n, (e.nodes ++ extra)[i]? = some n) (f : Folder e R sdir r es) :
    ∃ es', Folder (e.added r0 es0 nm i extra) R sdir r (es ++ es') ∧ ∀ y ∈ es', y.1 = nm ∧ r = r0 := by
  have k := kept_added f0.mem f0.dir nm i extra
  by_cases he : r0 = r
  · subst he
    have : es = es0 := by
      have := f.dir.symm.trans f0.dir
      simpa using this
    subst this
    refine ⟨[(nm, i)], f.kept k (added_get f0.dir nm i extra) ?_ ?_ ?_, by simp⟩
    · rw [List.map_append, List.nodup_append]
      refine ⟨f.names, by simp, ?_⟩
      intro a ha b hb
      simp only [List.map_cons, List.map_nil, List.mem_singleton] at hb
      subst hb
      rintro rfl
      exact lookup_none_iff.1 hl ha
    · intro y hy
      rcases List.mem_append.1 hy with hy | hy
      · exact f.ok y hy
      · simp only [List.mem_singleton] at hy; subst hy; exact hn
    · intro y hy
      rcases List.mem_append.1 hy with hy | hy
      · obtain ⟨n, hn⟩ := f.inodes y hy
        exact k.inode hn
      · simp only [List.mem_singleton] at hy
        subst hy
        obtain ⟨n, hi⟩ := hi
        by_cases hri : r0 = i
        · subst hri; exact ⟨_, added_get f0.dir nm r0 extra⟩
        · exact ⟨n, added_get_ne hri hi⟩
  · refine ⟨[], ?_, by simp⟩
    rw [List.append_nil]
    refine f.kept k (added_get_ne he (getElem?_append_some f.dir)) f.names f.ok fun x hx => ?_
    obtain ⟨n, hn⟩ := f.inodes x hx
    exact k.inode hn

theorem create_eq {R : List Nat} {e : Disk} {s : Text} {r : Nat} {es : List (Text × Nat)} (f : Folder e R s r es) (nm : Text) (n : Node) :
    e.create r nm n = e.added r es nm e.nodes.length [n] := by
  simp only [Disk.create, Disk.addEntry, getElem?_append_some f.dir, Disk.put, Disk.added]

theorem addEntry_eq {R : List Nat} {e : Disk} {s : Text} {r : Nat} {es : List (Text × Nat)} (f : Folder e R s r es) (nm : Text) (i : Nat) :
    e.addEntry r nm i = e.added r es nm i [] := by
  simp only [Disk.addEntry, f.dir, Disk.put, Disk.added, List.append_nil]

theorem free_eq {R : List Nat} {e : Disk} {s : Text} {r : Nat} {es : List (Text × Nat)} (f : Folder e R s r es) (nm : Text) : e.free r nm = (es.lookup nm).isNone := by
  simp only [Disk.free, f.dir]

theorem link_taken {R : List Nat} {e : Disk} {s : Text} {r : Nat} {es : List (Text × Nat)} (f : Folder e R s r es) {nm : Text} (hn : NameOk nm) {i : Nat}
    (hl : es.lookup nm = some i) (old : Text) : e.link old (child s nm) = none := by
  unfold Disk.link
  rw [f.parent hn]
  cases e.lookup old with
  | none => rfl
  | some j =>
    dsimp only
    rw [free_eq f, hl]
    cases e.nodes[j]? with
    | none => rfl
    | some n => cases n <;> simp

theorem symlink_taken {R : List Nat} {e : Disk} {s : Text} {r : Nat} {es : List (Text × Nat)} (f : Folder e R s r es) {nm : Text} (hn : NameOk nm) {i : Nat}
    (hl : es.lookup nm = some i) (old : Text) : e.symlink old (child s nm) = none := by
  simp [Disk.symlink, Disk.make, f.parent hn, free_eq f, hl]

theorem place_eq {R : List Nat} {e : Disk} {s : Text} {r : Nat} {es : List (Text × Nat)} (f : Folder e R s r es) {nm : Text} (hn : NameOk nm)
    (h : ∀ i, es.lookup nm = some i → ∃ n, e.nodes[i]? = some n ∧ Stays n) : e.place e.steps (e.start e.cwd (child s nm)) (comps (child s nm)) = some (r, nm) := by
  have := f.steps
  cases hs : e.steps with
  | zero => omega
  | succ k =>
    unfold Disk.place
    simp only [f.parent hn, f.entry]
    cases hl : es.lookup nm with
    | none => rfl
    | some i =>
      obtain ⟨n, he, hst⟩ := h i hl
      simp only [he]
      cases n <;> simp_all [Stays]

theorem write_new {R : List Nat} {e : Disk} {s : Text} {r : Nat} {es : List (Text × Nat)} (f : Folder e R s r es) {nm : Text} (hn : NameOk nm)
    (hl : es.lookup nm = none) (a : Bool) (data : Text) : e.write (child s nm) a data = some (e.added r es nm e.nodes.length [.file data]) := by
  simp only [Disk.write, place_eq f hn (fun i h => by rw [hl] at h; cases h), f.entry, hl, free_eq f, create_eq f]
  rfl

theorem write_stays {R : List Nat} {e : Disk} {s : Text} {r : Nat} {es : List (Text × Nat)} (f : Folder e R s r es) {nm : Text} (hn : NameOk nm)
    {i : Nat} {n : Node} (hl : es.lookup nm = some i) (hi : e.nodes[i]? = some n) (hst : Stays n) (a : Bool) (data : Text) : (e.write (child s nm) a data).getD e = e := by
  simp only [Disk.write, place_eq f hn (fun j h => by rw [hl] at h; cases h; exact ⟨n, hi, hst⟩), f.entry, hl, hi]
  cases n <;> simp_all [Stays]

theorem symlink_new {R : List Nat} {e : Disk} {s : Text} {r : Nat} {es : List (Text × Nat)} (f : Folder e R s r es) {nm : Text} (hn : NameOk nm)
    (hl : es.lookup nm = none) (old : Text) : createSymlink e false old (child s nm) = e.added r es nm e.nodes.length [.link old] := by
  have h1 : e.symlink old (child s nm) = some (e.added r es nm e.nodes.length [.link old]) := by
    simp [Disk.symlink, Disk.make, f.parent hn, free_eq f, hl, create_eq f]
  unfold createSymlink
  simp only [h1, Bool.false_eq_true, if_false]
  have hi : ∃ n, (e.nodes ++ [Node.link old])[e.nodes.length]? = some n := ⟨.link old, by simp⟩
  have k := kept_added f.mem f.dir nm e.nodes.length [.link old]
  obtain ⟨es', f', _⟩ := folder_added f hn hl hi f
  have he : es ++ es' = es ++ [(nm, e.nodes.length)] := by
    have := f'.dir.symm.trans (added_get f.dir nm e.nodes.length [.link old])
    simpa using this
  rw [he] at f'
  rw [link_taken f' hn (i := e.nodes.length) (by rw [lookup_append, hl]; simp [List.lookup])]
  rfl

/-- A message that is written as a file and not linked to. -/
def Delivered.copied : Delivered → Bool
  | .file _ => false
  | _ => true

theorem deliver_taken {R : List Nat} {e : Disk} {s : Text} {r : Nat} {es : List (Text × Nat)} (f : Folder e R s r es) {nm : Text} (hn : NameOk nm) (hard : Bool) (x : Delivered)
    {i : Nat} (hl : es.lookup nm = some i) (hs : x.copied = true → ∃ n, e.nodes[i]? = some n ∧ Stays n) : deliver e hard (child s nm) x = e := by
  cases x with
  | file path =>
    simp only [deliver, createSymlink, link_taken f hn hl, symlink_taken f hn hl]
    cases hard <;> rfl
  | imap o =>
    obtain ⟨n, h, hst⟩ := hs rfl
    cases o with
    | none => rfl
    | some data => exact write_stays f hn hl h hst false data
  | mbox folder o =>
    obtain ⟨n, h, hst⟩ := hs rfl
    cases o with
    | none => rfl
    | some data => exact write_stays f hn hl h hst false _

/-- The node made for a result. -/
def Delivered.node (hard : Bool) : Delivered → Option Node
  | .file path => if hard then none else some (.link path)
  | .imap (some data) => some (.file data)
  | .mbox folder (some data) => some (.file (copiedMessage folder data))
  | _ => none

theorem deliver_new {R : List Nat} {e : Disk} {s : Text} {r : Nat} {es : List (Text × Nat)} (f : Folder e R s r es) {nm : Text} (hn : NameOk nm) {hard : Bool} {x : Delivered}
    (hl : es.lookup nm = none) {n : Node} (hx : x.node hard = some n) : deliver e hard (child s nm) x = e.added r es nm e.nodes.length [n] := by
  cases x with
  | file path =>
    cases hard with
    | true => simp [Delivered.node] at hx
    | false =>
      simp only [Delivered.node, Bool.false_eq_true, if_false, Option.some.injEq] at hx
      subst hx
      exact symlink_new f hn hl path
  | imap o =>
    cases o with
    | none => simp [Delivered.node] at hx
    | some data =>
      simp only [Delivered.node, Option.some.injEq] at hx
      subst hx
      simp only [deliver, write_new f hn hl, Option.getD_some]
  | mbox folder o =>
    cases o with
    | none => simp [Delivered.node] at hx
    | some data =>
      simp only [Delivered.node, Option.some.injEq] at hx
      subst hx
      simp only [deliver, write_new f hn hl, Option.getD_some]

theorem deliver_hard {R : List Nat} {e : Disk} {s : Text} {r : Nat} {es : List (Text × Nat)} (f : Folder e R s r es) {nm : Text} (hn : NameOk nm) {path : Text}
    (hl : es.lookup nm = none) : 
    deliver e true (child s nm) (.file path) = match e.lookup path with
      | none => e
      | some i => match e.nodes[i]? with
        | none => e
        | some (.dir _) => e
        | some _ => e.added r es nm i [] := by
  simp only [deliver, createSymlink, Disk.link, f.parent hn, if_true]
  cases e.lookup path with
  | none => rfl
  | some i =>
    dsimp only
    rw [free_eq f, hl, addEntry_eq f]
    cases e.nodes[i]? with
    | none => rfl
    | some n => cases n <;> rfl

theorem deliver_cases {R : List Nat} {e : Disk} {s : Text} {r : Nat} {es : List (Text × Nat)} (f : Folder e R s r es) {nm : Text} (hn : NameOk nm) (hard : Bool) (x : Delivered)
    (hs : x.copied = true → ∀ i, es.lookup nm = some i → ∃ n, e.nodes[i]? = some n ∧ Stays n) :
    deliver e hard (child s nm) x = e ∨ (es.lookup nm = none ∧ ∃ i extra, (∃ n, (e.nodes ++ extra)[i]? = some n) ∧ deliver e hard (child s nm) x = e.added r es nm i extra) := by
  cases hl : es.lookup nm with
  | some i => exact .inl (deliver_taken f hn hard x hl fun h => hs h i hl)
  | none =>
    cases hx : x.node hard with
    | some n => exact .inr ⟨rfl, _, _, ⟨n, by simp⟩, deliver_new f hn hl hx⟩
    | none =>
      cases x with
      | imap o => cases o with
        | none => exact .inl rfl
        | some data => simp [Delivered.node] at hx
      | mbox folder o => cases o with
        | none => exact .inl rfl
        | some data => simp [Delivered.node] at hx
      | file path =>
        cases hard with
        | false => simp [Delivered.node] at hx
        | true =>
          rw [deliver_hard f hn hl]
          cases e.lookup path with
          | none => exact .inl rfl
          | some i =>
            cases hi : e.nodes[i]? with
            | none => left; simp [hi]
            | some n =>
              cases n with
              | dir fs => left; simp [hi]
              | file t => exact .inr ⟨rfl, i, [], ⟨_, by rw [List.append_nil]; exact hi⟩, by simp [hi]⟩
              | link t => exact .inr ⟨rfl, i, [], ⟨_, by rw [List.append_nil]; exact hi⟩, by simp [hi]⟩
              | other => exact .inr ⟨rfl, i, [], ⟨_, by rw [List.append_nil]; exact hi⟩, by simp [hi]⟩

theorem deliver_step {R : List Nat} {e : Disk} {s : Text} {r0 : Nat} {es0 : List (Text × Nat)} (f0 : Folder e R s r0 es0) {nm : Text} (hn : NameOk nm) (hard : Bool) (x : Delivered)
    (hs : x.copied = true → ∀ i, es0.lookup nm = some i → ∃ n, e.nodes[i]? = some n ∧ Stays n) :
    Kept R e (deliver e hard (child s nm) x) ∧ ∀ sdir r es, Folder e R sdir r es →
      ∃ es', Folder (deliver e hard (child s nm) x) R sdir r (es ++ es') ∧ ∀ y ∈ es', y.1 = nm ∧ r = r0 := by
  rcases deliver_cases f0 hn hard x hs with h | ⟨hl, i, extra, hi, h⟩
  · rw [h]
    exact ⟨Kept.refl R e, fun sdir r es f => ⟨[], by rw [List.append_nil]; exact f, by simp⟩⟩
  · rw [h]
    exact ⟨kept_added f0.mem f0.dir nm i extra, fun sdir r es f => folder_added f0 hn hl hi f⟩

theorem Spec.Folder.unique {d : Disk} {R R' : List Nat} {s : Text} {r r' : Nat} {es es' : List (Text × Nat)} (f : Folder d R s r es) (f' : Folder d R' s r' es') : r = r' := by
  have := f.route.walk.symm.trans f'.route.walk
  simpa using this

theorem deliver_result {R : List Nat} {d e : Disk} (k : Kept R d e) {s : Text} {r : Nat} {es : List (Text × Nat)} (f : Folder e R s r es) {nm : Text} (hn : NameOk nm) (hard : Bool)
    (x : Delivered) (hl : es.lookup nm = none) : ResultAt R d (deliver e hard (child s nm) x) hard (child s nm) x := by
  have hnew : ∀ n, x.node hard = some n → (deliver e hard (child s nm) x).lstat (child s nm) = some n := by
    intro n hx
    rw [deliver_new f hn hl hx]
    obtain ⟨es', f', _⟩ := folder_added f hn hl (i := e.nodes.length) (extra := [n]) ⟨n, by simp⟩ f
    have he : es ++ es' = es ++ [(nm, e.nodes.length)] := by
      have := f'.dir.symm.trans (added_get f.dir nm e.nodes.length [n])
      simpa using this
    rw [he] at f'
    unfold Disk.lstat
    rw [f'.lookup hn, lookup_append, hl]
    have h0 := (List.getElem?_eq_some_iff.1 f.dir).1
    simp only [List.lookup, beq_self_eq_true, Option.none_or]
    exact added_get_ne (by omega) (by simp)
  cases x with
  | file path =>
    cases hard with
    | false => exact hnew _ rfl
    | true =>
      simp only [ResultAt, if_true]
      intro q name i n hlast hroute hq hent hi hnd
      have hlk : e.lookup path = some i := by
        have hr := hroute.kept k
        unfold Disk.lookup Disk.parent
        rw [hlast]
        dsimp only
        rw [k.start, k.cwd, k.steps, hr.walk]
        exact k.entry hq hent
      have hi' := k.same i n hi (fun _ => hnd)
      have : deliver e true (child s nm) (.file path) = e.added r es nm i [] := by
        rw [deliver_hard f hn hl, hlk]
        dsimp only
        rw [hi']
        cases n with
        | dir fs => exact absurd rfl (hnd fs)
        | _ => rfl
      rw [this]
      obtain ⟨es', f', _⟩ := folder_added f hn hl (i := i) (extra := []) ⟨n, by rw [List.append_nil]; exact hi'⟩ f
      have he : es ++ es' = es ++ [(nm, i)] := by
        have := f'.dir.symm.trans (added_get f.dir nm i [])
        simpa using this
      rw [he] at f'
      rw [f'.lookup hn, lookup_append, hl]
      simp [List.lookup]
  | imap o =>
    cases o with
    | none => simp only [ResultAt, deliver, f.lookup hn, hl]
    | some data => exact hnew _ rfl
  | mbox folder o =>
    cases o with
    | none => simp only [ResultAt, deliver, f.lookup hn, hl]
    | some data => exact hnew _ rfl

theorem lookup_more {es more : List (Text × Nat)} {nm : Text} (h : ∀ y ∈ more, y.1 ≠ nm) : (es ++ more).lookup nm = es.lookup nm := by
  have : more.lookup nm = none := by
    rw [lookup_none_iff]
    intro hm
    obtain ⟨y, hy, he⟩ := List.mem_map.1 hm
    exact h y hy he
  rw [lookup_append, this, Option.or_none]

theorem resultAt_kept {R : List Nat} {d e e' : Disk} (k : Kept R e e') {s : Text} {r : Nat} {es more : List (Text × Nat)} (f : Folder e R s r es) (f' : Folder e' R s r (es ++ more))
    {nm : Text} (hn : NameOk nm) (hm : ∀ y ∈ more, y.1 ≠ nm) {hard : Bool} {x : Delivered} (h : ResultAt R d e hard (child s nm) x) :
    ResultAt R d e' hard (child s nm) x := by
  have hlk : e'.lookup (child s nm) = e.lookup (child s nm) := by rw [f.lookup hn, f'.lookup hn, lookup_more hm]
  have hls : ∀ n, (∀ fs, n ≠ .dir fs) → e.lstat (child s nm) = some n → e'.lstat (child s nm) = some n := by
    intro n hnd h
    unfold Disk.lstat at h ⊢
    rw [hlk]
    cases hc : e.lookup (child s nm) with
    | none => rw [hc] at h; cases h
    | some i =>
      rw [hc] at h
      exact k.same i n h fun _ => hnd
  cases x with
  | file path =>
    cases hard with
    | false => exact hls _ (by simp) h
    | true =>
      simp only [ResultAt, if_true] at h ⊢
      rw [hlk]; exact h
  | imap o =>
    cases o with
    | none => simp only [ResultAt] at h ⊢; rw [hlk]; exact h
    | some data => exact hls _ (by simp) h
  | mbox folder o =>
    cases o with
    | none => simp only [ResultAt] at h ⊢; rw [hlk]; exact h
    | some data => exact hls _ (by simp) h

/-- Results with the directory and the name for each. -/
def deliverAll (hard : Bool) (d : Disk) (items : List (Text × Text × Delivered)) : Disk :=
  items.foldl (fun d it => deliver d hard (child it.1 it.2.1) it.2.2) d

/-- There is a folder for the item, and no file that would be overwritten. -/
def ItemOk (R : List Nat) (e : Disk) (it : Text × Text × Delivered) : Prop :=
  NameOk it.2.1 ∧ ∃ r es, Folder e R it.1 r es ∧ (it.2.2.copied = true → ∀ i, es.lookup it.2.1 = some i → ∃ n, e.nodes[i]? = some n ∧ Stays n)

theorem stays_kept {R : List Nat} {e e' : Disk} (k : Kept R e e') {i : Nat} {n : Node} (h : e.nodes[i]? = some n) (hs : Stays n) : ∃ m, e'.nodes[i]? = some m ∧ Stays m := by
  cases n with
  | dir fs => obtain ⟨fs', h⟩ := k.dirs _ _ h; exact ⟨_, h, trivial⟩
  | other => exact ⟨_, k.same _ _ h (by simp), trivial⟩
  | file t => exact absurd hs (by simp [Stays])
  | link t => exact absurd hs (by simp [Stays])

theorem deliverAll_spec {R : List Nat} {d : Disk} (hard : Bool) (items : List (Text × Text × Delivered)) :
    ∀ {e : Disk}, Kept R d e → (∀ it ∈ items, ItemOk R e it) → (items.map (·.2.1)).Nodup →
      Kept R e (deliverAll hard e items) ∧
      (∀ sdir r es, Folder e R sdir r es → ∃ es', Folder (deliverAll hard e items) R sdir r (es ++ es') ∧
        ∀ y ∈ es', ∃ it ∈ items, it.2.1 = y.1 ∧ ∃ esi, Folder e R it.1 r esi) ∧
      ∀ it ∈ items, ∀ r es, Folder e R it.1 r es → es.lookup it.2.1 = none → ResultAt R d (deliverAll hard e items) hard (child it.1 it.2.1) it.2.2 := by
  induction items with
  | nil =>
    intro e _ _ _
    exact ⟨Kept.refl R e, fun sdir r es f => ⟨[], by rw [List.append_nil]; exact f, by simp⟩, by simp⟩
  | cons it items ih =>
    intro e k hok hnd
    obtain ⟨s, nm, x⟩ := it
    rw [List.map_cons, List.nodup_cons] at hnd
    obtain ⟨hn, r0, es0, f0, hs⟩ := hok (s, nm, x) (by simp)
    dsimp only at hn f0 hs
    obtain ⟨k1, hf1⟩ := deliver_step f0 hn hard x hs
    have hne : ∀ it ∈ items, it.2.1 ≠ nm := fun it hit he => hnd.1 (by dsimp only; rw [← he]; exact List.mem_map_of_mem (f := fun z : Text × Text × Delivered => z.2.1) hit)
    have hok1 : ∀ it ∈ items, ItemOk R (deliver e hard (child s nm) x) it := by
      intro it hit
      obtain ⟨hn2, r2, es2, f2, hs2⟩ := hok it (by simp [hit])
      obtain ⟨es', f', hes'⟩ := hf1 _ _ _ f2
      refine ⟨hn2, r2, _, f', fun hc i hi => ?_⟩
      rw [lookup_more (nm := it.2.1) (fun y hy he => hne it hit (he.symm.trans (hes' y hy).1))] at hi
      obtain ⟨n, h1, h2⟩ := hs2 hc i hi
      exact stays_kept k1 h1 h2
    obtain ⟨kk, hff, hres⟩ := ih (k.trans k1) hok1 hnd.2
    refine ⟨k1.trans kk, ?_, ?_⟩
    · intro sdir r es f
      obtain ⟨es1, f1, h1⟩ := hf1 _ _ _ f
      obtain ⟨es2, f2, h2⟩ := hff _ _ _ f1
      refine ⟨es1 ++ es2, by rw [← List.append_assoc]; exact f2, fun y hy => ?_⟩
      rcases List.mem_append.1 hy with hy | hy
      · exact ⟨(s, nm, x), by simp, (h1 y hy).1.symm, es0, (h1 y hy).2 ▸ f0⟩
      · obtain ⟨it, hit, he, esi, fi⟩ := h2 y hy
        obtain ⟨_, r2, es2, f2, _⟩ := hok it (by simp [hit])
        obtain ⟨_, f3, _⟩ := hf1 _ _ _ f2
        have : r2 = r := f3.unique fi
        exact ⟨it, by simp [hit], he, es2, this ▸ f2⟩
    · intro it hit r es f hl
      rcases List.mem_cons.1 hit with rfl | hit
      · dsimp only at f hl ⊢
        have h1 := deliver_result k f hn hard x hl
        obtain ⟨es1, f1, _⟩ := hf1 _ _ _ f
        obtain ⟨es2, f2, h2⟩ := hff _ _ _ f1
        exact resultAt_kept kk f1 f2 hn (fun y hy he => by
          obtain ⟨it, hit, he', _⟩ := h2 y hy
          exact hne it hit (he'.trans he)) h1
      · obtain ⟨es1, f1, h1⟩ := hf1 _ _ _ f
        exact hres it hit r _ f1 (by rw [lookup_more (nm := it.2.1) (fun y hy he => hne it hit (he.symm.trans (h1 y hy).1))]; exact hl)

/-- The files and links with wanted names are gone from the folder `s`. -/
def ClearedOf (R : List Nat) (d c : Disk) (w : Text → Bool) (s : Text) : Prop :=
  ∃ r es, Folder d R s r es ∧ Folder c R s r (es.filter fun x => !(w x.1 && removable d x.2))

theorem removable_false_iff {d : Disk} {i : Nat} {n : Node} (h : d.nodes[i]? = some n) : removable d i = false ↔ Stays n := by
  simp only [removable, h]
  cases n <;> simp [Stays]

theorem lookup_filter {es : List (Text × Nat)} (hn : (es.map (·.1)).Nodup) (p : Text × Nat → Bool) {a : Text} {i : Nat} :
    (es.filter p).lookup a = some i ↔ es.lookup a = some i ∧ p (a, i) = true := by
  have hn' : ((es.filter p).map (·.1)).Nodup := (List.filter_sublist.map _).nodup hn
  constructor
  · intro h
    have := List.mem_filter.1 (mem_of_lookup h)
    exact ⟨lookup_of_mem hn this.1, this.2⟩
  · intro h
    exact lookup_of_mem hn' (x := (a, i)) (List.mem_filter.2 ⟨mem_of_lookup h.1, h.2⟩)

theorem final_spec {R : List Nat} {d c : Disk} {w : Text → Bool} {S : List Text} (k : Kept R d c) (hS : ∀ s ∈ S, ClearedOf R d c w s) (hard : Bool)
    {items : List (Text × Text × Delivered)} (hit : ∀ it ∈ items, it.1 ∈ S ∧ NameOk it.2.1 ∧
      (w it.2.1 = true ∨ (it.2.2.copied = true → ∀ x, d.lstat (child it.1 it.2.1) = some x → Stays x))) (hnd : (items.map (·.2.1)).Nodup) :
    Kept R d (deliverAll hard c items) ∧
    (∀ it ∈ items, (d.lookup (child it.1 it.2.1) = none ∨ (w it.2.1 = true ∧ ∃ x, d.lstat (child it.1 it.2.1) = some x ∧ ¬ Stays x)) →
      ResultAt R d (deliverAll hard c items) hard (child it.1 it.2.1) it.2.2) ∧
    (∀ s ∈ S, ∀ nm, NameOk nm → ∀ j, (deliverAll hard c items).lookup (child s nm) = some j →
      (d.lookup (child s nm) = some j ∧ (w nm = false ∨ ∃ x, d.lstat (child s nm) = some x ∧ Stays x)) ∨
      ∃ it ∈ items, it.2.1 = nm ∧ ∃ r es es', Folder d R s r es ∧ Folder d R it.1 r es') ∧
    (∀ s ∈ S, ∀ nm, NameOk nm → ∀ x, d.lstat (child s nm) = some x → (Stays x ∨ w nm = false) → (deliverAll hard c items).lookup (child s nm) = d.lookup (child s nm)) := by
  have hls : ∀ {s r es nm i n}, Folder d R s r es → NameOk nm → es.lookup nm = some i → d.nodes[i]? = some n → d.lstat (child s nm) = some n := by
    intro s r es nm i n f hn hl hi
    simp only [Disk.lstat, f.lookup hn, hl, hi]
  have hok : ∀ it ∈ items, ItemOk R c it := by
    intro it hi
    obtain ⟨h1, h2, h3⟩ := hit it hi
    obtain ⟨r, es, f, f'⟩ := hS _ h1
    refine ⟨h2, r, _, f', fun hc i hl => ?_⟩
    obtain ⟨hl1, hl2⟩ := (lookup_filter f.names _).1 hl
    obtain ⟨n, hn⟩ := f.inodes _ (mem_of_lookup hl1)
    have hst : Stays n := by
      rcases h3 with h3 | h3
      · simp only [h3, Bool.true_and, Bool.not_eq_true'] at hl2
        exact (removable_false_iff hn).1 hl2
      · exact h3 hc n (hls f h2 hl1 hn)
    exact stays_kept k hn hst
  obtain ⟨kk, hf, hres⟩ := deliverAll_spec hard items k hok hnd
  refine ⟨k.trans kk, ?_, ?_, ?_⟩
  · intro it hi hg
    obtain ⟨h1, h2, _⟩ := hit it hi
    obtain ⟨r, es, f, f'⟩ := hS _ h1
    refine hres it hi r _ f' ?_
    cases hl : (es.filter fun x => !(w x.1 && removable d x.2)).lookup it.2.1 with
    | none => rfl
    | some i =>
      obtain ⟨hl1, hl2⟩ := (lookup_filter f.names _).1 hl
      obtain ⟨n, hn⟩ := f.inodes _ (mem_of_lookup hl1)
      rcases hg with hg | ⟨hw, x, hx, hst⟩
      · rw [f.lookup h2, hl1] at hg; cases hg
      · rw [hls f h2 hl1 hn] at hx
        cases hx
        simp only [hw, Bool.true_and, Bool.not_eq_true'] at hl2
        exact absurd ((removable_false_iff hn).1 hl2) hst
  · intro s hs nm hn j hj
    obtain ⟨r, es, f, f'⟩ := hS _ hs
    obtain ⟨es', f2, h2⟩ := hf _ _ _ f'
    rw [f2.lookup hn, lookup_append] at hj
    cases hl : (es.filter fun x => !(w x.1 && removable d x.2)).lookup nm with
    | some i =>
      left
      rw [hl, Option.some_or] at hj
      cases hj
      obtain ⟨hl1, hl2⟩ := (lookup_filter f.names _).1 hl
      obtain ⟨n, hi⟩ := f.inodes _ (mem_of_lookup hl1)
      refine ⟨by rw [f.lookup hn, hl1], ?_⟩
      cases hw : w nm with
      | false => exact .inl rfl
      | true =>
        simp only [hw, Bool.true_and, Bool.not_eq_true'] at hl2
        exact .inr ⟨n, hls f hn hl1 hi, (removable_false_iff hi).1 hl2⟩
    | none =>
      right
      rw [hl, Option.none_or] at hj
      obtain ⟨it, hi, he, esi, fi⟩ := h2 _ (mem_of_lookup hj)
      obtain ⟨h1, _, _⟩ := hit it hi
      obtain ⟨r3, es3, f3, f3'⟩ := hS _ h1
      have : r3 = r := f3'.unique fi
      exact ⟨it, hi, he, r, es, es3, f, this ▸ f3⟩
  · intro s hs nm hn x hx hst
    obtain ⟨r, es, f, f'⟩ := hS _ hs
    obtain ⟨es', f2, h2⟩ := hf _ _ _ f'
    cases hl : es.lookup nm with
    | none => simp only [Disk.lstat, f.lookup hn, hl] at hx; cases hx
    | some i =>
      obtain ⟨n, hi⟩ := f.inodes _ (mem_of_lookup hl)
      rw [hls f hn hl hi] at hx
      cases hx
      have : (es.filter fun x => !(w x.1 && removable d x.2)).lookup nm = some i := by
        rw [lookup_filter f.names]
        refine ⟨hl, ?_⟩
        rcases hst with h | h
        · simp [(removable_false_iff hi).2 h]
        · simp [h]
      rw [f2.lookup hn, lookup_append, this, f.lookup hn, hl]
      rfl

end Mairix
