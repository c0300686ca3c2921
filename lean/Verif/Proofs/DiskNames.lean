import Verif.Proofs.Disk

namespace Mairix
open Spec

/-! ## The two folders of a maildir cleared -/

theorem clearedOf_one {R : List Nat} {d : Disk} {s : Text} {r : Nat} {es : List (Text × Nat)} (f : Folder d R s r es) (w : Text → Bool) :
    Kept R d (clearDir d s w) ∧ ClearedOf R d (clearDir d s w) w s := by
  rw [clearDir_eq f w]
  exact ⟨kept_put f.mem f.dir, r, es, f, f.filter _⟩

theorem clearedOf_none {R : List Nat} {d : Disk} {s : Text} {r : Nat} {es : List (Text × Nat)} (f : Folder d R s r es) : ClearedOf R d d (fun _ => false) s := by
  refine ⟨r, es, f, ?_⟩
  rw [show (es.filter fun x => !(false && removable d x.2)) = es from List.filter_eq_self.2 (by simp)]
  exact f

theorem Spec.Folder.other {R : List Nat} {d : Disk} {s : Text} {r r' : Nat} {es : List (Text × Nat)} (f : Folder d R s r es) (hr' : r' ∈ R) {es1 es2 : List (Text × Nat)}
    (h : d.nodes[r']? = some (.dir es1)) (hne : r' ≠ r) : Folder (d.put r' (.dir es2)) R s r es := by
  have k := kept_put (es' := es2) hr' h
  refine f.kept k (by simp [Disk.put, List.getElem?_set_ne hne, f.dir]) f.names f.ok fun x hx => ?_
  obtain ⟨n, hn⟩ := f.inodes x hx
  exact k.inode hn

theorem clearedOf_two {R : List Nat} {d : Disk} {s s' : Text} {r r' : Nat} {es es' : List (Text × Nat)} (f : Folder d R s r es) (f' : Folder d R s' r' es') (hne : r ≠ r')
    (w : Text → Bool) :
    Kept R d (clearDir (clearDir d s w) s' w) ∧ ClearedOf R d (clearDir (clearDir d s w) s' w) w s ∧ ClearedOf R d (clearDir (clearDir d s w) s' w) w s' := by
  rw [clearDir_eq f w]
  have f1 := f'.other f.mem f.dir hne (es2 := es.filter fun x => !(w x.1 && removable d x.2))
  have f2 := f.filter fun x => !(w x.1 && removable d x.2)
  rw [clearDir_eq f1 w]
  have he : (es'.filter fun x => !(w x.1 && removable (d.put r (.dir (es.filter fun x => !(w x.1 && removable d x.2)))) x.2)) =
      es'.filter fun x => !(w x.1 && removable d x.2) := by
    apply List.filter_congr
    intro x _
    rw [removable_put f.dir]
  refine ⟨(kept_put f.mem f.dir).trans (kept_put f1.mem f1.dir), ⟨r, es, f, f2.other f1.mem f1.dir (Ne.symm hne)⟩, r', es', f', ?_⟩
  have := f1.filter fun x => !(w x.1 && removable (d.put r (.dir (es.filter fun x => !(w x.1 && removable d x.2)))) x.2)
  rw [he] at this ⊢
  exact this

/-! ## Names of the results -/

theorem maildirName_cases {i : Nat} (hi : i < 2 ^ 31) (dir : Text) (m : DbMsg) :
    maildirName dir i m = .ok none ∨ ∃ sub nm, maildirName dir i m = .ok (some (child (dir ++ sub) nm)) ∧ (sub = bs "/new" ∨ sub = bs "/cur") ∧ NameOk nm ∧
      ∃ tail, nm = bs "123456789." ++ (digits i ++ 0x2e :: tail) := by
  by_cases hm : m.type = DB_MSG_FILE ∨ m.type = DB_MSG_IMAP ∨ m.type = DB_MSG_MBOX
  · right
    obtain ⟨new, h⟩ := maildirName_ok hi dir m hm
    refine ⟨if new then bs "/new" else bs "/cur", bs "123456789." ++ (digits i ++ (bs ".mairix" ++
        if (flagsOf m).1 || (flagsOf m).2.1 || (flagsOf m).2.2 then bs ":2," ++ flagLetters (flagsOf m).1 (flagsOf m).2.1 (flagsOf m).2.2 else [])), ?_, ?_, ?_, ?_⟩
    · rw [h]
      congr 2
      cases new
      · simp only [child, List.append_assoc, show bs "/cur/" = bs "/cur" ++ [0x2f] from by decide, Bool.false_eq_true, if_false]
        rfl
      · simp only [child, List.append_assoc, show bs "/new/" = bs "/new" ++ [0x2f] from by decide, if_true]
        rfl
    · cases new
      · exact .inr rfl
      · exact .inl rfl
    · constructor
      · have : bs "123456789." ≠ [] := by decide
        simp [this]
      · simp only [List.mem_append, not_or]
        refine ⟨by decide, ?_, by decide, ?_⟩
        · intro h
          have := isDigit_digits h
          revert this; decide
        · generalize (flagsOf m).1 = a
          generalize (flagsOf m).2.1 = b
          generalize (flagsOf m).2.2 = c
          revert a b c
          decide
    · exact ⟨_, by rw [show bs ".mairix" = 0x2e :: bs "mairix" from by decide]; rfl⟩
  · left
    simp only [not_or] at hm
    simp only [maildirName, if_neg hm.1, if_neg hm.2.1, if_neg hm.2.2]

theorem mhName_cases {ii : Nat} (hi : ii + 1 < 2 ^ 31) (dir : Text) (m : DbMsg) :
    mhName dir ii m = .ok none ∨ (mhName dir ii m = .ok (some (child dir (digits (ii + 1)))) ∧ NameOk (digits (ii + 1)) ∧ validMh (digits (ii + 1)) = true) := by
  by_cases hm : m.type = DB_MSG_FILE ∨ m.type = DB_MSG_IMAP ∨ m.type = DB_MSG_MBOX
  · right
    have hne : digits (ii + 1) ≠ [] := by
      intro h
      have := decimal_digits (ii + 1)
      rw [h] at this
      have h0 : (0 : Nat) = ii + 1 := this
      omega
    refine ⟨?_, ⟨hne, ?_⟩, ?_⟩
    · simp only [mhName, if_pos hm, mkMhPath_ok hi]
      rfl
    · intro h
      have := isDigit_digits h
      revert this; decide
    · have hv : ∀ t : Text, (∀ c ∈ t, isDigit c = true) → validMhLoop t = true := by
        intro t
        induction t with
        | nil => intro _; rfl
        | cons c t ih =>
          intro h
          simp only [validMhLoop, h c (by simp), if_true]
          exact ih fun x hx => h x (by simp [hx])
      have hb : (digits (ii + 1)).isEmpty = false := by
        cases hc : digits (ii + 1) with
        | nil => exact absurd hc hne
        | cons => rfl
      simp only [validMh, hb, Bool.not_false, Bool.true_and]
      exact hv _ fun c hc => isDigit_digits hc
  · left
    simp only [mhName, if_neg hm]

theorem maildir_items (dir : Text) (hard : Bool) (l : List (Nat × DbMsg × Source)) :
    ∀ (d : Disk), (l.map (·.1)).Nodup → (∀ x ∈ l, x.1 < 2 ^ 31) →
      ∃ items, deliverMaildir dir hard d l = .ok (deliverAll hard d items) ∧ (items.map (·.2.1)).Nodup ∧
        (∀ it ∈ items, (it.1 = dir ++ bs "/new" ∨ it.1 = dir ++ bs "/cur") ∧ NameOk it.2.1 ∧
          ∃ i m s, (i, m, s) ∈ l ∧ maildirName dir i m = .ok (some (child it.1 it.2.1)) ∧ it.2.2 = delivered m s ∧
            ∃ tail, it.2.1 = bs "123456789." ++ (digits i ++ 0x2e :: tail)) ∧
        ∀ i m s, (i, m, s) ∈ l → ∀ t, maildirName dir i m = .ok (some t) → ∃ it ∈ items, child it.1 it.2.1 = t ∧ it.2.2 = delivered m s := by
  induction l with
  | nil => intro d _ _; exact ⟨[], rfl, by simp, by simp, by simp⟩
  | cons x l ih =>
    intro d hnd hlt
    obtain ⟨i, m, s⟩ := x
    rw [List.map_cons, List.nodup_cons] at hnd
    have hi : i < 2 ^ 31 := hlt (i, m, s) (by simp)
    rcases maildirName_cases hi dir m with h | ⟨sub, nm, h, hsub, hn, tail, htail⟩
    · obtain ⟨items, h1, h2, h3, h4⟩ := ih d hnd.2 fun x hx => hlt x (by simp [hx])
      refine ⟨items, by simp only [deliverMaildir, h, h1], h2, ?_, ?_⟩
      · intro it hit
        obtain ⟨a, b, i', m', s', hm, c⟩ := h3 it hit
        exact ⟨a, b, i', m', s', by simp [hm], c⟩
      · intro i' m' s' hm t ht
        rcases List.mem_cons.1 hm with he | hm
        · cases he
          rw [h] at ht; cases ht
        · exact h4 i' m' s' hm t ht
    · obtain ⟨items, h1, h2, h3, h4⟩ := ih (deliver d hard (child (dir ++ sub) nm) (delivered m s)) hnd.2 fun x hx => hlt x (by simp [hx])
      refine ⟨(dir ++ sub, nm, delivered m s) :: items, ?_, ?_, ?_, ?_⟩
      · simp only [deliverMaildir, h, h1]
        rfl
      · rw [List.map_cons, List.nodup_cons]
        refine ⟨?_, h2⟩
        intro hmem
        obtain ⟨it, hit, he⟩ := List.mem_map.1 hmem
        obtain ⟨_, _, i', m', s', hm, _, _, tail', ht'⟩ := h3 it hit
        rw [ht', htail] at he
        have := digits_inj_append (by decide) (List.append_cancel_left he)
        subst this
        exact hnd.1 (List.mem_map.2 ⟨_, hm, rfl⟩)
      · intro it hit
        rcases List.mem_cons.1 hit with rfl | hit
        · exact ⟨by rcases hsub with rfl | rfl; exact .inl rfl; exact .inr rfl, hn, i, m, s, by simp, h, rfl, tail, htail⟩
        · obtain ⟨a, b, i', m', s', hm, c⟩ := h3 it hit
          exact ⟨a, b, i', m', s', by simp [hm], c⟩
      · intro i' m' s' hm t ht
        rcases List.mem_cons.1 hm with he | hm
        · cases he
          rw [h] at ht; cases ht
          exact ⟨_, List.mem_cons_self, rfl, rfl⟩
        · obtain ⟨it, hit, c⟩ := h4 i' m' s' hm t ht
          exact ⟨it, by simp [hit], c⟩

theorem mh_items (dir : Text) (hard : Bool) (l : List (DbMsg × Source)) :
    ∀ (ii : Nat) (d : Disk), ii + l.length < 2 ^ 31 →
      ∃ items, deliverMh dir hard ii d l = .ok (deliverAll hard d items) ∧ (items.map (·.2.1)).Nodup ∧
        (∀ it ∈ items, it.1 = dir ∧ NameOk it.2.1 ∧ validMh it.2.1 = true ∧
          ∃ k m s, l[k]? = some (m, s) ∧ mhName dir (ii + k) m = .ok (some (child it.1 it.2.1)) ∧ it.2.2 = delivered m s ∧ it.2.1 = digits (ii + k + 1)) ∧
        ∀ (k : Nat) m s, l[k]? = some (m, s) → ∀ t, mhName dir (ii + k) m = .ok (some t) → ∃ it ∈ items, child it.1 it.2.1 = t ∧ it.2.2 = delivered m s := by
  induction l with
  | nil => intro ii d _; exact ⟨[], rfl, by simp, by simp, by simp⟩
  | cons x l ih =>
    intro ii d hlt
    obtain ⟨m, s⟩ := x
    rw [List.length_cons] at hlt
    have key : ∀ {items : List (Text × Text × Delivered)}, (∀ it ∈ items, it.1 = dir ∧ NameOk it.2.1 ∧ validMh it.2.1 = true ∧
          ∃ k m s, l[k]? = some (m, s) ∧ mhName dir (ii + 1 + k) m = .ok (some (child it.1 it.2.1)) ∧ it.2.2 = delivered m s ∧ it.2.1 = digits (ii + 1 + k + 1)) →
        ∀ it ∈ items, it.1 = dir ∧ NameOk it.2.1 ∧ validMh it.2.1 = true ∧
          ∃ k m' s', ((m, s) :: l)[k]? = some (m', s') ∧ mhName dir (ii + k) m' = .ok (some (child it.1 it.2.1)) ∧ it.2.2 = delivered m' s' ∧ it.2.1 = digits (ii + k + 1) := by
      intro items h it hit
      obtain ⟨a, b, c, k, m', s', e1, e2, e3, e4⟩ := h it hit
      exact ⟨a, b, c, k + 1, m', s', by simpa using e1, by rw [show ii + (k + 1) = ii + 1 + k by omega]; exact e2, e3, by rw [show ii + (k + 1) = ii + 1 + k by omega]; exact e4⟩
    rcases mhName_cases (ii := ii) (by omega) dir m with h | ⟨h, hn, hv⟩
    · obtain ⟨items, h1, h2, h3, h4⟩ := ih (ii + 1) d (by omega)
      refine ⟨items, by simp only [deliverMh, h, h1], h2, key h3, ?_⟩
      intro k m' s' hm t ht
      cases k with
      | zero =>
        simp only [List.getElem?_cons_zero, Option.some.injEq, Prod.mk.injEq] at hm
        obtain ⟨rfl, rfl⟩ := hm
        rw [Nat.add_zero, h] at ht; cases ht
      | succ k => exact h4 k m' s' (by simpa using hm) t (by rw [show ii + 1 + k = ii + (k + 1) by omega]; exact ht)
    · obtain ⟨items, h1, h2, h3, h4⟩ := ih (ii + 1) (deliver d hard (child dir (digits (ii + 1))) (delivered m s)) (by omega)
      refine ⟨(dir, digits (ii + 1), delivered m s) :: items, ?_, ?_, ?_, ?_⟩
      · simp only [deliverMh, h, h1]
        rfl
      · rw [List.map_cons, List.nodup_cons]
        refine ⟨?_, h2⟩
        intro hmem
        obtain ⟨it, hit, he⟩ := List.mem_map.1 hmem
        obtain ⟨_, _, _, k, _, _, _, _, _, e⟩ := h3 it hit
        rw [e] at he
        have := digits_inj he
        omega
      · intro it hit
        rcases List.mem_cons.1 hit with rfl | hit
        · exact ⟨rfl, hn, hv, 0, m, s, by simp, h, rfl, rfl⟩
        · exact key h3 it hit
      · intro k m' s' hm t ht
        cases k with
        | zero =>
          simp only [List.getElem?_cons_zero, Option.some.injEq, Prod.mk.injEq] at hm
          obtain ⟨rfl, rfl⟩ := hm
          rw [Nat.add_zero, h] at ht; cases ht
          exact ⟨_, List.mem_cons_self, rfl, rfl⟩
        | succ k =>
          obtain ⟨it, hit, c⟩ := h4 k m' s' (by simpa using hm) t (by rw [show ii + 1 + k = ii + (k + 1) by omega]; exact ht)
          exact ⟨it, by simp [hit], c⟩

end Mairix
