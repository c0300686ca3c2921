import Verif.Spec.SearchTop
import Verif.Model.SearchTop
import Verif.Proofs.Terminal
import Verif.Props.Disk

/-!
# A whole search with a results folder
-/

namespace Mairix
open Spec

theorem rounds_length {α : Type} {f : Nat → Res α} : ∀ (k i : Nat) {xs : List α}, rounds f i k = .ok xs → xs.length = k := by
  intro k
  induction k with
  | zero => intro i xs e; cases e; rfl
  | succ k ih =>
    intro i xs e
    unfold rounds at e
    obtain ⟨a, -, e⟩ := res_bind_ok e
    obtain ⟨as, e1, e⟩ := res_bind_ok e
    cases e
    simp [ih _ e1]

theorem view_length {raw : RawDb} {view : ReadDb} (h : viewDb raw = .ok view) : view.msgs.length < 2 ^ 31 := by
  unfold viewDb at h
  obtain ⟨msgs, e1, h⟩ := res_bind_ok h
  obtain ⟨_, -, h⟩ := res_bind_ok h
  obtain ⟨_, -, h⟩ := res_bind_ok h
  obtain ⟨_, -, h⟩ := res_bind_ok h
  obtain ⟨_, -, h⟩ := res_bind_ok h
  obtain ⟨_, -, h⟩ := res_bind_ok h
  obtain ⟨_, -, h⟩ := res_bind_ok h
  obtain ⟨_, -, h⟩ := res_bind_ok h
  obtain ⟨_, -, h⟩ := res_bind_ok h
  cases h
  show msgs.length < 2 ^ 31
  rw [rounds_length _ _ e1]
  unfold loopBound
  split <;> omega

theorem collect_length : ∀ (msgs : List DbMsg) (hits : List Bool) (i : Nat), (collect i msgs hits).length ≤ msgs.length
  | [], hits, i => by simp [collect]
  | m :: ms, [], i => by simp [collect]
  | m :: ms, h :: hs, i => by
    have := collect_length ms hs (i + 1)
    unfold collect
    split <;> simp <;> omega

theorem found_length {scan} {sort : List Nat → List Nat} {db : ReadDb} {args : List Text} {threads sorted : Bool} {found : List Nat} (hsort : ∀ l, (sort l).Perm l)
    (h : doSearch scan sort db args threads sorted = .ok found) : found.length ≤ db.msgs.length := by
  unfold doSearch at h
  obtain ⟨hits0, -, h⟩ := res_bind_ok h
  have h : ∃ hits, (.ok (if sorted then sort (collect 0 db.msgs hits) else collect 0 db.msgs hits) : Res (List Nat)) = .ok found := by
    dsimp only at h
    split at h
    · obtain ⟨hits, -, h⟩ := res_bind_ok h
      exact ⟨hits, h⟩
    · exact ⟨hits0, h⟩
  obtain ⟨hits, h⟩ := h
  cases h
  have := collect_length db.msgs hits 0
  split
  · rw [(hsort _).length_eq]
    exact this
  · exact this

theorem resultEntries_ok {view : ReadDb} {source : DbMsg → Res Source} : ∀ {found : List Nat}, (∀ i ∈ found, ∃ m s, view.msgs[i]? = some m ∧ source m = .ok s) →
    ∃ l, resultEntries view source found = .ok l ∧ l.map (·.1) = found ∧ ∀ i m s, (i, m, s) ∈ l ↔ i ∈ found ∧ view.msgs[i]? = some m ∧ source m = .ok s
  | [], _ => ⟨[], rfl, rfl, by simp⟩
  | i :: found, h => by
    obtain ⟨m, s, h1, h5⟩ := h i (by simp)
    obtain ⟨l, h2, h3, h4⟩ := resultEntries_ok (source := source) fun j hj => h j (List.mem_cons_of_mem _ hj)
    refine ⟨(i, m, s) :: l, by simp only [resultEntries, h1, h2, h5, bind, Except.bind], by simp [h3], ?_⟩
    intro j m' s'
    rw [List.mem_cons, h4]
    constructor
    · rintro (h | ⟨a, b, c⟩)
      · cases h
        exact ⟨by simp, h1, h5⟩
      · exact ⟨by simp [a], b, c⟩
    · rintro ⟨a, b, c⟩
      rcases List.mem_cons.1 a with rfl | a
      · rw [h1] at b
        cases b
        rw [h5] at c
        cases c
        exact .inl rfl
      · exact .inr ⟨a, b, c⟩

/-- Where a directory or the like was there still is one. -/
theorem stays_stays {R : List Nat} {d e : Disk} (hk : Kept R d e) {t : Text} (hl : e.lookup t = d.lookup t) {x : Node} (hx : d.lstat t = some x) (hs : Stays x) :
    ∃ y, e.lstat t = some y ∧ Stays y := by
  unfold Disk.lstat at hx ⊢
  rw [hl]
  cases hj : d.lookup t with
  | none => rw [hj] at hx; cases hx
  | some j =>
    rw [hj] at hx
    simp only at hx ⊢
    cases x with
    | dir es =>
      obtain ⟨es', h⟩ := hk.dirs j es hx
      exact ⟨_, h, trivial⟩
    | other => exact ⟨_, hk.same j _ hx (by intro _ es h; cases h), trivial⟩
    | file _ => exact absurd hs id
    | link _ => exact absurd hs id

theorem copiedMessage_copyOf (p : Text) (m : Posted) : copiedMessage p m.text = copyOf p m := by
  unfold copiedMessage copyOf
  rw [List.dropLast_eq_take]
  have : (if m.text.length ≠ 0 then m.text.length - 1 else 0) = m.text.length - 1 := by split <;> omega
  rw [this]
  rfl

end Mairix
