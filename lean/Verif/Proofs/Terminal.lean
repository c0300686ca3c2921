import Verif.Spec.Terminal
import Verif.Spec.Run
import Verif.Props.Posted
import Verif.Proofs.Calendar

/-!
# Results on the terminal
-/

namespace Mairix
open Spec

theorem intText_nat (n : Nat) : intText (n : Int) = digits n := by
  unfold intText
  rw [if_neg (by omega)]
  rfl

theorem asInt_small {n : Nat} (h : n < 2 ^ 31) : asInt n = (n : Int) := by
  unfold asInt
  rw [BitVec.toInt_eq_toNat_cond, BitVec.toNat_ofNat, Nat.mod_eq_of_lt (by omega), if_pos (by omega)]

/-- All messages of the database that are not dead have a place. -/
def Placed (db : ReadDb) : Prop :=
  ∀ (i : Nat) (m : DbMsg), db.msgs[i]? = some m → m.type ≠ DB_MSG_DEAD → (∃ e, IsAt db i e) ∨ (m.type = DB_MSG_MBOX ∧ ∃ p, db.mboxPaths[m.mbix]? = some p ∧ m.mtime + m.size < 2 ^ 31)

theorem agrees_placed {hist : List Run} {r : Run} {db : ReadDb} {info : List Info} (h : Agrees hist r db info) (hs : ∀ r' ∈ hist, Sane r') : Placed db := by
  intro i m hm hd
  rcases h.rest i m hm with h1 | h1 | ⟨h1, p, x, h2, h3, h4, r', h5, h6⟩
  · exact .inl h1
  · exact absurd h1 hd
  · obtain ⟨va, h7, h8, -⟩ := h6
    have := (hs r' h5).contents p va h7
    exact .inr ⟨h1, p, h2, by omega⟩

/-- The line of a result. -/
theorem placeLine_ok {db : ReadDb} (hp : Placed db) {i : Nat} {m : DbMsg} (hm : db.msgs[i]? = some m) (hd : m.type ≠ DB_MSG_DEAD) :
    ∃ h, HitIs db i h ∧ placeLine db m = .ok h.line := by
  rcases hp i m hm hd with ⟨e, m', h1, h2, h3⟩ | ⟨h1, p, h2, h3⟩
  · rw [hm] at h1
    cases h1
    obtain ⟨k, p⟩ := e
    refine ⟨.file p, ⟨k, m, hm, h2, h3⟩, ?_⟩
    unfold placeLine
    rw [if_pos (by cases k <;> simp only at h3 <;> simp [h3])]
    simp only at h2
    rw [h2]
    rfl
  · refine ⟨.box p m.mtime (m.mtime + m.size), ⟨m.size, rfl, m, hm, h1, h2, rfl⟩, ?_⟩
    unfold placeLine
    rw [if_neg (by rw [h1]; decide), if_pos h1, h2, asInt_small (by omega), asInt_small (by omega)]
    dsimp only
    rw [if_neg (by omega), intText_nat, ← Int.natCast_add, intText_nat]
    simp only [Hit.line, List.append_assoc]

theorem writeEach_ok {db : ReadDb} {one : DbMsg → Res Text} {R : Nat → α → Prop} {f : α → Text} {found : List Nat}
    (h : ∀ i ∈ found, ∃ m a, db.msgs[i]? = some m ∧ R i a ∧ one m = .ok (f a)) :
    ∃ as, Pairs R found as ∧ writeEach db one found = .ok (as.flatMap f) := by
  induction found with
  | nil => exact ⟨[], .nil, rfl⟩
  | cons i l ih =>
    obtain ⟨m, a, h1, h2, h3⟩ := h i (by simp)
    obtain ⟨as, h4, h5⟩ := ih fun j hj => h j (by simp [hj])
    refine ⟨a :: as, .cons h2 h4, ?_⟩
    simp only [writeEach, h1, h3, h5, bind, Except.bind, List.flatMap_cons]

/-- Results are messages that are not dead. -/
theorem found_live {scan} {sort : List Nat → List Nat} {db : ReadDb} {args : List Text} {threads sorted : Bool} {found : List Nat} (hsort : ∀ l, (sort l).Perm l)
    (h : doSearch scan sort db args threads sorted = .ok found) : found.Nodup ∧ ∀ i ∈ found, ∃ m, db.msgs[i]? = some m ∧ m.type ≠ DB_MSG_DEAD := by
  unfold doSearch at h
  obtain ⟨hits0, -, h⟩ := res_bind_ok h
  have h : ∃ hits, (.ok (if sorted then sort (collect 0 db.msgs hits) else collect 0 db.msgs hits) : Res (List Nat)) = .ok found := by
    dsimp only at h
    split at h
    · obtain ⟨hits, -, h⟩ := res_bind_ok h
      exact ⟨hits, h⟩
    · exact ⟨hits0, h⟩
  obtain ⟨hits, h⟩ := h
  obtain ⟨-, h1, h2⟩ := collect_ok db.msgs hits 0
  have hmem : ∀ i ∈ collect 0 db.msgs hits, ∃ m, db.msgs[i]? = some m ∧ m.type ≠ DB_MSG_DEAD := by
    intro i hi
    obtain ⟨m, h3, -, h4⟩ := (h2 i).1 (by rw [Nat.zero_add]; exact hi)
    exact ⟨m, h3, h4⟩
  have hnd : (collect 0 db.msgs hits).Nodup := h1.imp (by intro a b h e; omega)
  cases h
  split
  · exact ⟨(hsort _).nodup_iff.2 hnd, fun i hi => hmem i ((hsort _).mem_iff.1 hi)⟩
  · exact ⟨hnd, hmem⟩

/-- What a search shows with `-r`. -/
theorem raw_shown {db : ReadDb} (hp : Placed db) {scan} {sort : List Nat → List Nat} {args : List Text} {threads sorted : Bool} {found : List Nat} (hsort : ∀ l, (sort l).Perm l)
    (h : doSearch scan sort db args threads sorted = .ok found) : ∃ hits, Pairs (HitIs db) found hits ∧ rawOutput db found = .ok (hits.flatMap Hit.line) := by
  apply writeEach_ok
  intro i hi
  obtain ⟨m, h1, h2⟩ := (found_live hsort h).2 i hi
  obtain ⟨a, h3, h4⟩ := placeLine_ok hp h1 h2
  exact ⟨m, a, h1, h3, h4⟩

theorem searchRaw_ok {scan} {sort : List Nat → List Nat} {file : Text} {args : List Text} {threads sorted : Bool} {raw view found t} (h1 : openDb file = .ok raw) (h2 : viewDb raw = .ok view)
    (h3 : doSearch scan sort view args threads sorted = .ok found) (h4 : rawOutput view found = .ok t) : searchRaw scan sort file args threads sorted = .ok t := by
  simp only [searchRaw, h1, h2, h3, h4, bind, Except.bind]

theorem hitIs_file_unique {db : ReadDb} (once : ∀ i j e, IsAt db i e → IsAt db j e → i = j) (files : ∀ i e, IsAt db i e → e.kind = .file) {p : Text} :
    ∀ {found : List Nat} {hits : List Hit}, found.Nodup → Pairs (HitIs db) found hits → hits.count (.file p) ≤ 1 := by
  intro found hits hn hp
  induction hp with
  | nil => simp
  | @cons i a found hits h1 h2 ih =>
    rw [List.nodup_cons] at hn
    rw [List.count_cons]
    have := ih hn.2
    split
    · rename_i he
      simp only [beq_iff_eq] at he
      subst he
      have : hits.count (.file p) = 0 := by
        rw [List.count_eq_zero]
        intro hm
        obtain ⟨j, hj, h3⟩ := pairs_mem h2 hm
        obtain ⟨k, h1⟩ := h1
        obtain ⟨k', h3⟩ := h3
        have e1 := files _ _ h1
        have e2 := files _ _ h3
        simp only at e1 e2
        subst e1 e2
        exact hn.1 (once _ _ _ h1 h3 ▸ hj)
      omega
    · omega

end Mairix
