import Verif.Props.Augment
import Verif.Spec.AugmentBoxes

/-!
# C88: searches with `-a` after one without, with copies of messages of mboxen
-/

namespace Mairix
open Spec

/-- A message of which something gets into a folder. -/
def Deliverable (y : Nat × DbMsg × Source) : Prop := y.2.1.type = DB_MSG_FILE ∨ y.2.1.type = DB_MSG_MBOX ∧ ∃ t, y.2.2.data = some t

theorem Deliverable.type {y : Nat × DbMsg × Source} (h : Deliverable y) : y.2.1.type = DB_MSG_FILE ∨ y.2.1.type = DB_MSG_IMAP ∨ y.2.1.type = DB_MSG_MBOX := by
  rcases h with h | ⟨h, -⟩
  · exact .inl h
  · exact .inr (.inr h)

/-- What it is; and that delivering it again changes nothing. -/
theorem Deliverable.node {y : Nat × DbMsg × Source} (h : Deliverable y) : ∃ nd, ¬ Stays nd ∧ (∀ es, nd ≠ .dir es) ∧
    (∀ R d e t, ResultAt R d e false t (delivered y.2.1 y.2.2) ↔ e.lstat t = some nd) ∧
    ∀ R (e : Disk) sdir r es nm, Folder e R sdir r es → NameOk nm → e.lstat (child sdir nm) = some nd → deliver e false (child sdir nm) (delivered y.2.1 y.2.2) = e := by
  rcases h with h | ⟨h, t, ht⟩
  · refine ⟨.link y.2.1.path, id, by simp, ?_, ?_⟩
    · intro R d e t
      rw [delivered, if_pos h]
      exact Iff.rfl
    · intro R e sdir r es nm f hn hx
      rw [delivered, if_pos h]
      obtain ⟨j, hj⟩ := lookup_of_lstat hx
      rw [f.lookup hn] at hj
      have : e.symlink y.2.1.path (child sdir nm) = none := by
        simp [Disk.symlink, Disk.make, f.parent hn, free_eq f, hj]
      simp [deliver, createSymlink, this]
  · refine ⟨.file (copiedMessage y.2.2.folder t), id, by simp, ?_, ?_⟩
    · intro R d e u
      rw [delivered, if_neg (by rw [h]; decide), if_neg (by rw [h]; decide), ht]
      exact Iff.rfl
    · intro R e sdir r es nm f hn hx
      rw [delivered, if_neg (by rw [h]; decide), if_neg (by rw [h]; decide), ht]
      obtain ⟨j, hj⟩ := lookup_of_lstat hx
      simp only [Disk.lstat, hj] at hx
      rw [f.lookup hn] at hj
      have hp : e.place e.steps (e.start e.cwd (child sdir nm)) (comps (child sdir nm)) = some (r, nm) := by
        have := f.steps
        cases hs : e.steps with
        | zero => omega
        | succ k =>
          unfold Disk.place
          simp only [f.parent hn, f.entry, hj, hx]
      simp only [deliver, Disk.write, hp, f.entry, hj, hx, Bool.false_eq_true, if_false, Option.getD_some]
      exact put_self hx

theorem collected_new {d e : Disk} {dir : Text} {n c : Nat} (hnc : n ≠ c) {U l : List (Nat × DbMsg × Source)} (hC : Collected n c dir d e U) (hUt : ∀ y ∈ U, Deliverable y) (hlt : ∀ y ∈ l, Deliverable y)
    (hls : ∀ y ∈ l, y.1 < 2 ^ 31) (hnd : (l.map (·.1)).Nodup)
    (hfree : ∀ y ∈ l, ∀ f ∈ maildirSubs dir, ∀ nm, NameOk nm → maildirName dir y.1 y.2.1 = .ok (some (child f nm)) → e.lookup (child f nm) = none) :
    ∃ e', deliverMaildir dir false e l = .ok e' ∧ Collected n c dir d e' (U ++ l) := by
  obtain ⟨en, fn⟩ := hC.new
  obtain ⟨ec, fc⟩ := hC.cur
  obtain ⟨items, h1, h2, hit, hall⟩ := maildir_items dir false l e hnd hls
  have hfold : ∀ s ∈ maildirSubs dir, ∃ r es, Folder e [n, c] s r es := by
    intro s hs
    rcases List.mem_cons.1 hs with rfl | hs
    · exact ⟨_, _, fn⟩
    · rcases List.mem_cons.1 hs with rfl | hs
      · exact ⟨_, _, fc⟩
      · cases hs
  have hmem : ∀ it ∈ items, it.1 ∈ maildirSubs dir := by
    intro it h
    rcases (hit it h).1 with h | h
    · exact List.mem_cons.2 (.inl h)
    · exact List.mem_cons.2 (.inr (List.mem_cons.2 (.inl h)))
  have hok : ∀ it ∈ items, ItemOk [n, c] e it := by
    intro it h
    obtain ⟨-, h4, i, m, s, hm, hT, -, -⟩ := hit it h
    obtain ⟨r, es, f⟩ := hfold _ (hmem it h)
    refine ⟨h4, r, es, f, fun _ j hj => ?_⟩
    have := hfree _ hm _ (hmem it h) _ h4 hT
    rw [f.lookup h4, hj] at this
    cases this
  obtain ⟨k, hff, hres⟩ := deliverAll_spec false items hC.kept hok h2
  generalize he' : deliverAll false e items = e' at k hff hres h1
  -- what was there stays
  have hold : ∀ f ∈ maildirSubs dir, ∀ nm, NameOk nm → ∀ j, e.lookup (child f nm) = some j → e'.lookup (child f nm) = some j ∧ ∃ x, e.nodes[j]? = some x := by
    intro f hf nm hnm j hj
    obtain ⟨r, es, g⟩ := hfold f hf
    obtain ⟨es', g', -⟩ := hff _ _ _ g
    rw [g.lookup hnm] at hj
    rw [g'.lookup hnm, lookup_append, hj]
    exact ⟨rfl, g.inodes _ (mem_of_lookup hj)⟩
  have hkeep : ∀ f ∈ maildirSubs dir, ∀ nm, NameOk nm → ∀ x, (∀ es, x ≠ .dir es) → e.lstat (child f nm) = some x → e'.lstat (child f nm) = some x := by
    intro f hf nm hnm x hx h
    obtain ⟨j, hj⟩ := lookup_of_lstat h
    obtain ⟨g, -⟩ := hold f hf nm hnm j hj
    simp only [Disk.lstat, hj] at h
    simp only [Disk.lstat, g]
    exact k.same _ _ h fun _ => hx
  have hU : ∀ y ∈ U, ∀ f ∈ maildirSubs dir, ∀ nm, NameOk nm → maildirName dir y.1 y.2.1 = .ok (some (child f nm)) → ResultAt [n, c] d e' false (child f nm) (delivered y.2.1 y.2.2) := by
    intro y hy f hf nm hnm hT
    obtain ⟨f', hf', nm', hnm', h6, h7⟩ := hC.filled.each y hy (hUt y hy).type
    have := hC.filled.one y hy _ _ hT h6
    obtain ⟨nd, -, hnd, hat, -⟩ := (hUt y hy).node
    rw [hat] at h7 ⊢
    rw [← this] at h7
    exact hkeep f hf nm hnm _ hnd h7
  have hl : ∀ y ∈ l, ∀ f ∈ maildirSubs dir, ∀ nm, NameOk nm → maildirName dir y.1 y.2.1 = .ok (some (child f nm)) → ResultAt [n, c] d e' false (child f nm) (delivered y.2.1 y.2.2) := by
    rintro ⟨i, m, s⟩ hy f hf nm hnm hT
    obtain ⟨r, es, g⟩ := hfold f hf
    cases hlk : e.lookup (child f nm) with
    | none =>
      obtain ⟨it, hi, h3, h4⟩ := hall i m s hy _ hT
      obtain ⟨hn', r', es', g', -⟩ := hok it hi
      rw [← h3] at hlk ⊢
      rw [← h4]
      rw [g'.lookup hn'] at hlk
      exact hres it hi _ _ g' hlk
    | some j =>
      rw [hfree _ hy f hf nm hnm hT] at hlk
      cases hlk
  have hnew : ∀ f ∈ maildirSubs dir, ∀ nm, NameOk nm → ∀ j, e'.lookup (child f nm) = some j → e.lookup (child f nm) = some j ∨ e.lookup (child f nm) = none ∧ ∃ y ∈ l, maildirName dir y.1 y.2.1 = .ok (some (child f nm)) := by
    intro f hf nm hnm j hj
    cases hlk : e.lookup (child f nm) with
    | some j' =>
      obtain ⟨g, -⟩ := hold f hf nm hnm j' hlk
      rw [g] at hj
      exact .inl hj
    | none =>
      refine .inr ⟨rfl, ?_⟩
      obtain ⟨r, es, g⟩ := hfold f hf
      obtain ⟨es', g', h6⟩ := hff _ _ _ g
      rw [g.lookup hnm] at hlk
      rw [g'.lookup hnm, lookup_append, hlk, Option.none_or] at hj
      obtain ⟨it, hi, h7, esi, g''⟩ := h6 _ (mem_of_lookup hj)
      obtain ⟨-, -, i, m, s, hm, h8, -⟩ := hit it hi
      refine ⟨_, hm, ?_⟩
      have hsame : it.1 = f := by
        have hi' := hmem it hi
        simp only [maildirSubs, List.mem_cons, List.not_mem_nil, or_false] at hf hi'
        rcases hf with rfl | rfl <;> rcases hi' with h | h <;> rw [h] at g'' ⊢
        · exact absurd ((fn.unique g).trans (g''.unique fc)) hnc
        · exact absurd ((fn.unique g'').trans (g.unique fc)) hnc
      rw [hsame, h7] at h8
      exact h8
  refine ⟨e', h1, hC.kept.trans k, ?_, ?_, ?_, ?_, ?_, ?_⟩
  · obtain ⟨es', g', -⟩ := hff _ _ _ fn
    exact ⟨_, g'⟩
  · obtain ⟨es', g', -⟩ := hff _ _ _ fc
    exact ⟨_, g'⟩
  · intro f hf nm hnm x hx hst
    obtain ⟨j, hj⟩ := lookup_of_lstat hx
    rcases hnew f hf nm hnm j hj with h | ⟨h, y, hy, hT⟩
    · obtain ⟨-, z, hz⟩ := hold f hf nm hnm j h
      have hz' : e.lstat (child f nm) = some z := by simp only [Disk.lstat, h]; exact hz
      simp only [Disk.lstat, hj] at hx
      refine hC.roomy f hf nm hnm z hz' ?_
      cases z with
      | dir _ => trivial
      | other => trivial
      | file t => rw [k.same _ _ hz (by simp)] at hx; cases hx; exact hst
      | link t => rw [k.same _ _ hz (by simp)] at hx; cases hx; exact hst
    · have := hl y hy f hf nm hnm hT
      obtain ⟨nd, hns, -, hat, -⟩ := (hlt y hy).node
      rw [hat, hx] at this
      cases this
      exact absurd hst hns
  · intro f hf nm hnm x hx hns
    obtain ⟨j, hj⟩ := lookup_of_lstat hx
    rcases hnew f hf nm hnm j hj with h | ⟨h, y, hy, hT⟩
    · obtain ⟨-, z, hz⟩ := hold f hf nm hnm j h
      have hz' : e.lstat (child f nm) = some z := by simp only [Disk.lstat, h]; exact hz
      have hzs : ¬ Stays z := by
        intro hzs
        obtain ⟨w, hw, hws⟩ := stays_kept k hz hzs
        simp only [Disk.lstat, hj] at hx
        rw [hx] at hw
        cases hw
        exact hns hws
      obtain ⟨y, hy, hT, -⟩ := hC.filled.only f hf nm hnm z hz' hzs
      exact ⟨y, by simp [hy], hT, hU y hy f hf nm hnm hT⟩
    · exact ⟨y, by simp [hy], hT, hl y hy f hf nm hnm hT⟩
  · intro y hy hty
    rcases List.mem_append.1 hy with hy | hy
    · obtain ⟨f, hf, nm, hnm, h6, -⟩ := hC.filled.each y hy hty
      exact ⟨f, hf, nm, hnm, h6, hU y hy f hf nm hnm h6⟩
    · rcases maildirName_cases (hls _ hy) dir y.2.1 with h | ⟨sub, nm, h, h5, h6, -⟩
      · obtain ⟨new, h'⟩ := maildirName_ok (hls _ hy) dir y.2.1 hty
        rw [h] at h'
        cases h'
      · have hsub : dir ++ sub ∈ maildirSubs dir := by rcases h5 with rfl | rfl <;> simp [maildirSubs]
        exact ⟨dir ++ sub, hsub, nm, h6, h, hl y hy _ hsub nm h6 h⟩
  · intro y _ t t' h h'
    rw [h] at h'
    exact Option.some.inj (Except.ok.inj h')

theorem collected_mem {d e : Disk} {dir : Text} {n c : Nat} {U V : List (Nat × DbMsg × Source)} (h : Collected n c dir d e U) (hm : ∀ y, y ∈ V ↔ y ∈ U) : Collected n c dir d e V := by
  refine ⟨h.kept, h.new, h.cur, h.roomy, ?_, ?_, ?_⟩
  · intro f hf nm hnm x hx hns
    obtain ⟨y, hy, h'⟩ := h.filled.only f hf nm hnm x hx hns
    exact ⟨y, (hm y).2 hy, h'⟩
  · intro y hy
    exact h.filled.each y ((hm y).1 hy)
  · intro y hy
    exact h.filled.one y ((hm y).1 hy)

theorem collected_there {d e : Disk} {dir : Text} {n c : Nat} {U : List (Nat × DbMsg × Source)} {y : Nat × DbMsg × Source} (hC : Collected n c dir d e U) (hyU : y ∈ U) (hyt : Deliverable y) :
    deliverMaildir dir false e [y] = .ok e := by
  obtain ⟨f, hf, nm, hnm, h6, h7⟩ := hC.filled.each y hyU hyt.type
  obtain ⟨nd, -, -, hat, hagain⟩ := hyt.node
  rw [hat] at h7
  have hfold : ∃ r es, Folder e [n, c] f r es := by
    obtain ⟨en, fn⟩ := hC.new
    obtain ⟨ec, fc⟩ := hC.cur
    simp only [maildirSubs, List.mem_cons, List.not_mem_nil, or_false] at hf
    rcases hf with rfl | rfl
    · exact ⟨_, _, fn⟩
    · exact ⟨_, _, fc⟩
  obtain ⟨r, es, g⟩ := hfold
  obtain ⟨i, m, s⟩ := y
  simp only [deliverMaildir, h6, hagain _ _ _ _ _ _ g hnm h7]

theorem collected_one {d e : Disk} {dir : Text} {n c : Nat} (hnc : n ≠ c) {U : List (Nat × DbMsg × Source)} {y : Nat × DbMsg × Source} (hC : Collected n c dir d e U) (hUt : ∀ u ∈ U, Deliverable u)
    (hyt : Deliverable y) (hUs : ∀ u ∈ U, u.1 < 2 ^ 31) (hys : y.1 < 2 ^ 31) (hone : ∀ u ∈ U, u.1 = y.1 → u = y) :
    ∃ e', deliverMaildir dir false e [y] = .ok e' ∧ Collected n c dir d e' (U ++ [y]) := by
  by_cases hyU : y ∈ U
  · exact ⟨e, collected_there hC hyU hyt, collected_mem hC fun z => by simp only [List.mem_append, List.mem_singleton]; exact ⟨fun h => h.elim id fun h => h ▸ hyU, .inl⟩⟩
  · refine collected_new hnc hC hUt (by simpa using hyt) (by simpa using hys) (by simp) ?_
    intro z hz f hf nm hnm hT
    obtain rfl := List.mem_singleton.1 hz
    cases hlk : e.lookup (child f nm) with
    | none => rfl
    | some j =>
      exfalso
      have hfold : ∃ r es, Folder e [n, c] f r es := by
        obtain ⟨en, fn⟩ := hC.new
        obtain ⟨ec, fc⟩ := hC.cur
        simp only [maildirSubs, List.mem_cons, List.not_mem_nil, or_false] at hf
        rcases hf with rfl | rfl
        · exact ⟨_, _, fn⟩
        · exact ⟨_, _, fc⟩
      obtain ⟨r, es, g⟩ := hfold
      have hlk' := hlk
      rw [g.lookup hnm] at hlk'
      obtain ⟨x, hx⟩ := g.inodes _ (mem_of_lookup hlk')
      have hx : e.lstat (child f nm) = some x := by simp only [Disk.lstat, hlk]; exact hx
      by_cases hst : Stays x
      · refine absurd ?_ (hC.roomy f hf nm hnm x hx hst)
        rcases maildirName_cases hys dir z.2.1 with h | ⟨sub, nm', h, h5, h6, tail, h7⟩
        · rw [hT] at h; cases h
        · rw [hT] at h
          have he := congrArg comps (Option.some.inj (Except.ok.inj h))
          rw [comps_child _ hnm, comps_child _ h6] at he
          have he := List.append_inj_right' he rfl
          rw [List.cons.inj he |>.1, h7]
          exact ⟨_, rfl⟩
      · obtain ⟨u, hu, hT', -⟩ := hC.filled.only f hf nm hnm x hx hst
        exact hyU (hone u hu (maildirName_inj (hUs u hu) hys hT' hT) ▸ hu)

theorem deliverMaildir_cons {e e1 : Disk} {dir : Text} {y : Nat × DbMsg × Source} (l : List (Nat × DbMsg × Source)) (h : deliverMaildir dir false e [y] = .ok e1) :
    deliverMaildir dir false e (y :: l) = deliverMaildir dir false e1 l := by
  obtain ⟨i, m, s⟩ := y
  simp only [deliverMaildir] at h ⊢
  cases hm : maildirName dir i m with
  | error f => simp only [hm] at h; cases h
  | ok o =>
    cases o with
    | none => simp only [hm] at h ⊢; cases h; rfl
    | some t => simp only [hm] at h ⊢; cases h; rfl

theorem collected_all {d : Disk} {dir : Text} {n c : Nat} (hnc : n ≠ c) : ∀ {l U : List (Nat × DbMsg × Source)} {e : Disk}, Collected n c dir d e U → (∀ y ∈ U ++ l, Deliverable y) → (∀ y ∈ U ++ l, y.1 < 2 ^ 31) →
    (∀ y ∈ U ++ l, ∀ y' ∈ U ++ l, y.1 = y'.1 → y = y') → ∃ e', deliverMaildir dir false e l = .ok e' ∧ Collected n c dir d e' (U ++ l)
  | [], U, e, hC, _, _, _ => ⟨e, rfl, by rw [List.append_nil]; exact hC⟩
  | y :: l, U, e, hC, ht, hs, hone => by
    obtain ⟨e1, h1, hC1⟩ := collected_one hnc hC (fun u hu => ht u (by simp [hu])) (ht y (by simp)) (fun u hu => hs u (by simp [hu])) (hs y (by simp)) (fun u hu he => hone u (by simp [hu]) y (by simp) he)
    have hl : U ++ [y] ++ l = U ++ y :: l := by simp
    obtain ⟨e', h2, hC2⟩ := collected_all hnc (l := l) hC1 (by rw [hl]; exact ht) (by rw [hl]; exact hs) (by rw [hl]; exact hone)
    rw [hl] at hC2
    exact ⟨e', (deliverMaildir_cons l h1).trans h2, hC2⟩

/-- What is there already is not changed. -/
theorem collected_same {d : Disk} {dir : Text} {n c : Nat} {U : List (Nat × DbMsg × Source)} {e : Disk} (hC : Collected n c dir d e U) (hUt : ∀ u ∈ U, Deliverable u) :
    ∀ {l : List (Nat × DbMsg × Source)}, (∀ y ∈ l, y ∈ U) → deliverMaildir dir false e l = .ok e
  | [], _ => rfl
  | y :: l, h => by
    have h1 : deliverMaildir dir false e [y] = .ok e := collected_there hC (h y (by simp)) (hUt y (h y (by simp)))
    rw [deliverMaildir_cons l h1]
    exact collected_same hC hUt fun z hz => h z (by simp [hz])

/-- The results of all the queries so far. -/
structure DeliversAll (mktime : Nat → Nat → Nat → Int) (xs : List Indexing) (x : Indexing) (s : Setting) (items : FolderType → List FolderItem) (view : ReadDb) (source : DbMsg → Res Source) (css : List (List Cond))
    (U : List (Nat × DbMsg × Source)) : Prop where
  small : ∀ y ∈ U, y.1 < 2 ^ 31
  kinds : ∀ y ∈ U, (MessageFile s items y.2.1.path ∧ y.2.1.type = DB_MSG_FILE) ∨ ∃ p ms m, Configured s items .mbox p ∧ GrownBox mktime xs x p ms ∧ m ∈ ms ∧ y.2.1.type = DB_MSG_MBOX ∧ y.2.2 = ⟨p, some m.text⟩ ∧
    ∃ cs ∈ css, ∀ z, TellsPosted m p z → ∀ c ∈ cs, c.Holds z
  of : ∀ y ∈ U, view.msgs[y.1]? = some y.2.1 ∧ source y.2.1 = .ok y.2.2
  files : ∀ p m, MessageFile s items p → FileMeans mktime x.disc p m → ∀ z, Tells m p (x.disc.size p) z → ((∃ y ∈ U, y.2.1.type = DB_MSG_FILE ∧ y.2.1.path = p) ↔ ∃ cs ∈ css, ∀ c ∈ cs, c.Holds z)
  boxes : ∀ p ms, Configured s items .mbox p → GrownBox mktime xs x p ms → ∀ m ∈ ms, ∀ z, TellsPosted m p z → (∃ cs ∈ css, ∀ c ∈ cs, c.Holds z) → ∃ y ∈ U, y.2.1.type = DB_MSG_MBOX ∧ y.2.2 = ⟨p, some m.text⟩

theorem DeliversAll.deliverable {mktime xs x s items view source css U} (h : DeliversAll mktime xs x s items view source css U) : ∀ y ∈ U, Deliverable y := by
  intro y hy
  rcases h.kinds y hy with ⟨-, k⟩ | ⟨p, ms, m, -, -, -, k, k', -⟩
  · exact .inl k
  · exact .inr ⟨k, m.text, by rw [k']⟩

theorem DeliversAll.inj {mktime xs x s items view source css U} (h : DeliversAll mktime xs x s items view source css U) : ∀ y ∈ U, ∀ y' ∈ U, y.1 = y'.1 → y = y' := by
  rintro ⟨i, m, t⟩ hy ⟨i', m', t'⟩ hy' he
  obtain ⟨g1, g2⟩ := h.of _ hy
  obtain ⟨h1, h2⟩ := h.of _ hy'
  simp only at he g1 g2 h1 h2
  subst he
  rw [g1] at h1
  cases h1
  rw [g2] at h2
  cases h2
  rfl

theorem DeliversAll.add {mktime xs x s items view source css U} (h : DeliversAll mktime xs x s items view source css U) {cs l} (hE : Entries mktime xs x s items cs l)
    (hv : ∀ y ∈ l, view.msgs[y.1]? = some y.2.1 ∧ source y.2.1 = .ok y.2.2) : DeliversAll mktime xs x s items view source (css ++ [cs]) (U ++ l) := by
  refine ⟨?_, ?_, ?_, ?_, ?_⟩
  · intro y hy
    rcases List.mem_append.1 hy with hy | hy
    · exact h.small y hy
    · exact hE.small y hy
  · intro y hy
    rcases List.mem_append.1 hy with hy | hy
    · rcases h.kinds y hy with k | ⟨p, ms, m, k1, k2, k3, k4, k5, cs', k6, k7⟩
      · exact .inl k
      · exact .inr ⟨p, ms, m, k1, k2, k3, k4, k5, cs', by simp [k6], k7⟩
    · rcases hE.kinds y hy with k | ⟨p, ms, m, k1, k2, k3, k4, k5, k7⟩
      · exact .inl k
      · exact .inr ⟨p, ms, m, k1, k2, k3, k4, k5, cs, by simp, k7⟩
  · intro y hy
    rcases List.mem_append.1 hy with hy | hy
    · exact h.of y hy
    · exact hv y hy
  · intro p m hp hm z hz
    constructor
    · rintro ⟨y, hy, k⟩
      rcases List.mem_append.1 hy with hy | hy
      · obtain ⟨cs', g1, g2⟩ := (h.files p m hp hm z hz).1 ⟨y, hy, k⟩
        exact ⟨cs', by simp [g1], g2⟩
      · exact ⟨cs, by simp, (hE.files p m hp hm z hz).1 ⟨y, hy, k⟩⟩
    · rintro ⟨cs', g, g'⟩
      rcases List.mem_append.1 g with g | g
      · obtain ⟨y, hy, k⟩ := (h.files p m hp hm z hz).2 ⟨cs', g, g'⟩
        exact ⟨y, by simp [hy], k⟩
      · rw [List.mem_singleton] at g
        subst g
        obtain ⟨y, hy, k⟩ := (hE.files p m hp hm z hz).2 g'
        exact ⟨y, by simp [hy], k⟩
  · rintro p ms hp hg m hm z hz ⟨cs', g, g'⟩
    rcases List.mem_append.1 g with g | g
    · obtain ⟨y, hy, k⟩ := h.boxes p ms hp hg m hm z hz ⟨cs', g, g'⟩
      exact ⟨y, by simp [hy], k⟩
    · rw [List.mem_singleton] at g
      subst g
      obtain ⟨y, hy, k⟩ := hE.boxes p ms hp hg m hm z hz g'
      exact ⟨y, by simp [hy], k⟩

theorem filled_any {mktime : Nat → Nat → Nat → Int} {xs : List Indexing} {x : Indexing} {s : Setting} {items : FolderType → List FolderItem} {view : ReadDb} {source : DbMsg → Res Source}
    {css : List (List Cond)} {l : List (Nat × DbMsg × Source)} (h : DeliversAll mktime xs x s items view source css l)
    (honce : ∀ y ∈ l, ∀ y' ∈ l, y.2.1.type = DB_MSG_FILE → y'.2.1.type = DB_MSG_FILE → y.2.1.path = y'.2.1.path → y = y') {R d d' folders T} (hF : Filled R d d' folders T l) : ResultsOfAny mktime xs x s items css d' folders := by
  have hlink : ∀ p, ∀ f ∈ folders, ∀ nm, NameOk nm → d'.lstat (child f nm) = some (.link p) → ∃ y ∈ l, T y (child f nm) ∧ y.2.1.type = DB_MSG_FILE ∧ y.2.1.path = p := by
    intro p f hf nm hnm hx
    obtain ⟨y, h1, h2, h3⟩ := hF.only f hf nm hnm _ hx id
    rcases h.kinds y h1 with ⟨-, k2⟩ | ⟨p', ms, m, -, -, -, k2, k3, -⟩
    · rw [delivered, if_pos k2] at h3
      have h3 : d'.lstat (child f nm) = some (.link y.2.1.path) := h3
      rw [hx] at h3
      exact ⟨y, h1, h2, k2, (Node.link.inj (Option.some.inj h3)).symm⟩
    · rw [delivered, if_neg (by rw [k2]; decide), if_neg (by rw [k2]; decide), k3] at h3
      have h3 : d'.lstat (child f nm) = some (.file (copiedMessage p' m.text)) := h3
      rw [hx] at h3
      cases h3
  have htype : ∀ y ∈ l, y.2.1.type = DB_MSG_FILE ∨ y.2.1.type = DB_MSG_IMAP ∨ y.2.1.type = DB_MSG_MBOX := by
    intro y hy
    rcases h.kinds y hy with ⟨-, k2⟩ | ⟨p', ms, m, -, -, -, k2, -⟩
    · exact .inl k2
    · exact .inr (.inr k2)
  have hlinks : ∀ p, LinkIn d' folders p ↔ ∃ y ∈ l, y.2.1.type = DB_MSG_FILE ∧ y.2.1.path = p := by
    intro p
    constructor
    · rintro ⟨f, hf, nm, hnm, hx⟩
      obtain ⟨y, h1, -, h2⟩ := hlink p f hf nm hnm hx
      exact ⟨y, h1, h2⟩
    · rintro ⟨y, hy, k3, k2⟩
      obtain ⟨f, hf, nm, hnm, -, h3⟩ := hF.each _ hy (htype _ hy)
      simp only [delivered, if_pos k3, k2] at h3
      exact ⟨f, hf, nm, hnm, h3⟩
  refine ⟨?_, ?_, ?_, ?_, ?_⟩
  · intro p hp
    obtain ⟨y, hy, k1, rfl⟩ := (hlinks p).1 hp
    rcases h.kinds y hy with ⟨k2, -⟩ | ⟨p', ms, m, -, -, -, k2, -⟩
    · exact k2
    · rw [k1] at k2; cases k2
  · intro p f hf nm hnm f' hf' nm' hnm' h1 h2
    obtain ⟨y, k1, k2, k3, k4⟩ := hlink p f hf nm hnm h1
    obtain ⟨y', k1', k2', k3', k4'⟩ := hlink p f' hf' nm' hnm' h2
    obtain rfl := honce y k1 y' k1' k3 k3' (k4.trans k4'.symm)
    exact hF.one _ k1 _ _ k2 k2'
  · intro p m hp hmean y hy
    rw [hlinks]
    exact h.files p m hp hmean y hy
  · rintro t ⟨f, hf, nm, hnm, hx⟩
    obtain ⟨y, h1, h2, h3⟩ := hF.only f hf nm hnm _ hx id
    rcases h.kinds y h1 with ⟨-, k2⟩ | ⟨p', ms, m, g1, g2, g3, k2, k3, k4⟩
    · rw [delivered, if_pos k2] at h3
      have h3 : d'.lstat (child f nm) = some (.link y.2.1.path) := h3
      rw [hx] at h3
      cases h3
    · rw [delivered, if_neg (by rw [k2]; decide), if_neg (by rw [k2]; decide), k3] at h3
      have h3 : d'.lstat (child f nm) = some (.file (copiedMessage p' m.text)) := h3
      rw [hx] at h3
      cases h3
      exact ⟨p', ms, m, g1, g2, g3, copiedMessage_copyOf .., k4⟩
  · intro p ms hp g m hm z hz hcs
    obtain ⟨y, hy, k2, k3⟩ := h.boxes p ms hp g m hm z hz hcs
    obtain ⟨f, hf, nm, hnm, -, h3⟩ := hF.each _ hy (htype _ hy)
    rw [delivered, if_neg (by rw [k2]; decide), if_neg (by rw [k2]; decide), k3] at h3
    have h3 : d'.lstat (child f nm) = some (.file (copiedMessage p m.text)) := h3
    rw [copiedMessage_copyOf] at h3
    exact ⟨f, hf, nm, hnm, h3⟩

/-- **C88.** Any number of indexing runs (with the conditions of C57 and C77, mail being only delivered to mboxen), then a search and any number of searches with `-a`, with a maildir for the results: all of them end without a
fault; on the disk nothing but the entries of `new` and `cur` is changed; and in the end there is exactly one link to every message file that satisfies one of the queries, and a copy of every message of an mbox that does, and
there are no links to others and no other files; and to repeat any of the searches with `-a` then changes nothing at all. (Missing: IMAP; MH folders, where it is false, `C56_augment_lost_violation`; databases that are changed between the searches, where it is false too, `C88_changed_violation`;
as for C57 and C77.) -/
theorem C88_boxes_partial {hashfn : Nat → Text → Nat} {mktime : Nat → Nat → Nat → Int} {md5 : Text → List UInt8} (hmd5 : ∀ t, (md5 t).length = 16) {xs : List Indexing} {x : Indexing} {file : Text}
    (hl : ∀ y ∈ xs ++ [x], LibraryOk y) (hd : ∀ y ∈ xs ++ [x], DiscOk y.disc)
    (hc : ∀ y ∈ xs ++ [x], ∃ s items, ∃ N < y.depth, Spec.Means y.config y.disc.fs s items ∧ PathMax y.disc.fs N)
    {s : Setting} {items : FolderType → List FolderItem} (hm : Spec.Means x.config x.disc.fs s items)
    (hu : ∀ y ∈ xs, Unchanged y.disc x.disc) (hf : x.fast = false) (hafter : ∀ y ∈ xs, y.disc.after = x.disc.after) (hgrown : ∀ p, Configured s items .mbox p → ∃ ms, GrownBox mktime xs x p ms)
    (e : indexMails hashfn mktime md5 (xs ++ [x]) none = .ok (some file))
    {scan dateRange} (hsc : ScansDates scan dateRange) (sort : List Nat → List Nat) (hsort : ∀ l, (sort l).Perm l) (imap : Text → Option Text)
    {d0 d : Disk} {dir : Text} (h1 : maybeCreateMaildir d0 dir = .ok d) {n c : Nat} {en ec : List (Text × Nat)}
    (fn : Folder d [n, c] (dir ++ bs "/new") n en) (fc : Folder d [n, c] (dir ++ bs "/cur") c ec) (hnc : n ≠ c) (hr : Roomy d (maildirSubs dir) fun nm => bs "123456789." <+: nm)
    (ho : Outside d [n, c] dir) (ho' : Outside d [n, c] (dir ++ bs "/tmp"))
    {cs : List Cond} {args : List Text} (hq : QueryWrittenAs dateRange cs args) (hfit : ∀ c ∈ cs, Cond.Fits c)
    {css : List (List Cond)} {qs : List (List Text)} (hqs : Pairs (fun cs args => QueryWrittenAs dateRange cs args) css qs) (hfits : ∀ cs ∈ css, ∀ c ∈ cs, Cond.Fits c) :
    ∃ d1 d', searchTop scan sort md5 x.disc imap .maildir dir false false false false file args d0 = ⟨d1, none⟩ ∧ Augmented scan sort md5 x.disc imap dir file qs d1 d' ∧
      Kept [n, c] d d' ∧ ResultsOfAny mktime xs x s items (cs :: css) d' (maildirSubs dir) ∧
      ∀ a ∈ args :: qs, searchTop scan sort md5 x.disc imap .maildir dir false true false false file a d' = ⟨d', none⟩ := by
  obtain ⟨raw, view, info, a1, a2, -, a4, -⟩ := whole_view hmd5 hl hd hc hm hu hf e
  -- one search more
  have hstep : ∀ {cs args}, QueryWrittenAs dateRange cs args → (∀ c ∈ cs, Cond.Fits c) → ∀ {D U css}, Collected n c dir d D U → DeliversAll mktime xs x s items view (sourceOf md5 x.disc imap raw view) css U →
      ∃ found l D', doSearch scan sort view args false false = .ok found ∧ resultEntries view (sourceOf md5 x.disc imap raw view) found = .ok l ∧ deliverMaildir dir false D l = .ok D' ∧
        Collected n c dir d D' (U ++ l) ∧ DeliversAll mktime xs x s items view (sourceOf md5 x.disc imap raw view) (css ++ [cs]) (U ++ l) := by
    intro cs args hq hfit D U css hC hD
    obtain ⟨raw', view', found, l, b1, b2, b3, b4, hE⟩ := top_entries hmd5 hl hd hc hm hu hf hafter hgrown e hsc hq hfit sort hsort imap
    rw [a1] at b1
    cases b1
    rw [a2] at b2
    cases b2
    have hD' := hD.add hE (resultEntries_view b4)
    obtain ⟨D', c1, c2⟩ := collected_all hnc hC hD'.deliverable hD'.small hD'.inj
    exact ⟨found, l, D', b3, b4, c1, c2, hD'⟩
  -- all of those with `-a`
  have hmore : ∀ {css qs}, Pairs (fun cs args => QueryWrittenAs dateRange cs args) css qs → (∀ cs ∈ css, ∀ c ∈ cs, Cond.Fits c) → ∀ {D U css0}, Collected n c dir d D U →
      DeliversAll mktime xs x s items view (sourceOf md5 x.disc imap raw view) css0 U →
      ∃ D' U', Augmented scan sort md5 x.disc imap dir file qs D D' ∧ Collected n c dir d D' U' ∧ DeliversAll mktime xs x s items view (sourceOf md5 x.disc imap raw view) (css0 ++ css) U' ∧
        (∀ y ∈ U, y ∈ U') ∧ ∀ a ∈ qs, ∃ found l, doSearch scan sort view a false false = .ok found ∧ resultEntries view (sourceOf md5 x.disc imap raw view) found = .ok l ∧ ∀ y ∈ l, y ∈ U' := by
    intro css qs hqs
    induction hqs with
    | nil =>
      intro _ D U css0 hC hD
      exact ⟨D, U, .done, hC, by rw [List.append_nil]; exact hD, fun _ h => h, by simp⟩
    | @cons cs args css qs hq hqs ih =>
      intro hfits D U css0 hC hD
      obtain ⟨found, l, D1, b1, b2, b3, b4, b5⟩ := hstep hq (hfits cs (by simp)) hC hD
      obtain ⟨D', U', c1, c2, c3, c4, c5⟩ := ih (fun cs' h => hfits cs' (by simp [h])) b4 b5
      refine ⟨D', U', .more ?_ c1, c2, by rw [List.append_assoc] at c3; exact c3, fun y hy => c4 y (by simp [hy]), fun a ha => ?_⟩
      rotate_left
      · rcases List.mem_cons.1 ha with rfl | ha
        · exact ⟨found, l, b1, b2, fun y hy => c4 y (by simp [hy])⟩
        · exact c5 a ha
      unfold searchTop
      simp only [a1, a2, bind, Except.bind, makeFolder, collected_again hC ho ho', b1, b2, fillFolder, if_true, b3]
  obtain ⟨found, l, D1, b1, b2, b3, b4, b5⟩ := hstep hq hfit (collected_clear fn fc hnc hr) (css := []) ⟨by simp, by simp, by simp, by simp, by simp⟩
  obtain ⟨D', U', c1, c2, c3, c4, c5⟩ := hmore hqs hfits b4 b5
  refine ⟨D1, D', ?_, c1, c2.kept, filled_any c3 ?_ c2.filled, fun a ha => ?_⟩
  rotate_right
  · have : ∃ found l, doSearch scan sort view a false false = .ok found ∧ resultEntries view (sourceOf md5 x.disc imap raw view) found = .ok l ∧ ∀ y ∈ l, y ∈ U' := by
      rcases List.mem_cons.1 ha with rfl | ha
      · exact ⟨found, l, b1, b2, fun y hy => c4 y (by simp [hy])⟩
      · exact c5 a ha
    obtain ⟨found, l, g1, g2, g3⟩ := this
    unfold searchTop
    simp only [a1, a2, bind, Except.bind, makeFolder, collected_again c2 ho ho', g1, g2, fillFolder, if_true, collected_same c2 c3.deliverable g3]
  · unfold searchTop
    simp only [a1, a2, bind, Except.bind, makeFolder, h1, b1, b2, fillFolder, Bool.false_eq_true, if_false, b3]
  · intro y hy y' hy' k k' he
    refine c3.inj y hy y' hy' (a4 _ _ ⟨.file, y.2.1.path⟩ ⟨_, (c3.of y hy).1, rfl, k⟩ ?_)
    rw [he]
    exact ⟨_, (c3.of y' hy').1, rfl, k'⟩

end Mairix
