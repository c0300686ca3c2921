import Verif.Proofs.Cull

/-! More rounds do not change the outcome of a purge that ends. -/

namespace Mairix
open Spec

theorem res_bind_ok {α β : Type} {x : Res α} {f : α → Res β} {b : β} (h : (x >>= f) = .ok b) :
    ∃ a, x = .ok a ∧ f a = .ok b := by
  cases x with
  | error e => cases h
  | ok a => exact ⟨a, rfl, h⟩

theorem purgeTables_mono {n : Nat} {keep : List Bool} {d d' : Tables} (h : purgeTables n keep d = .ok d') :
    ∀ m ≥ n, purgeTables m keep d = .ok d' := by
  intro m hm
  unfold purgeTables at h ⊢
  obtain ⟨t1, h1, h⟩ := res_bind_ok h
  obtain ⟨t2, h2, h⟩ := res_bind_ok h
  obtain ⟨t3, h3, h⟩ := res_bind_ok h
  obtain ⟨t4, h4, h⟩ := res_bind_ok h
  obtain ⟨t5, h5, h⟩ := res_bind_ok h
  obtain ⟨t6, h6, h⟩ := res_bind_ok h
  obtain ⟨t7, h7, h⟩ := res_bind_ok h
  unfold purgeTable at h1 h2 h3 h4 h5 h6 ⊢
  unfold purgeTable2 at h7 ⊢
  rw [recodeTable_mono h1 hm, recodeTable_mono h2 hm, recodeTable_mono h3 hm, recodeTable_mono h4 hm,
    recodeTable_mono h5 hm, recodeTable_mono h6 hm, recodeTable_mono h7 hm]
  exact h

theorem cull_mono {n : Nat} {db : Database} {r : Database × Bool} (h : cullDeadMessages n db = .ok r) :
    ∀ m ≥ n, cullDeadMessages m db = .ok r := by
  intro m hm
  unfold cullDeadMessages at h ⊢
  obtain ⟨t, h1, h⟩ := res_bind_ok h
  rw [purgeTables_mono h1 m hm]
  exact h

/-- What a purge that ends does. -/
theorem cull_ok {hash : Text → Nat} {db : Database} {ix : List MsgWords} (h : GoodDb hash db ix) {fuel : Nat}
    {db' : Database} {b : Bool} (e : cullDeadMessages fuel db = .ok (db', b)) :
    b = (db.msgs.any fun m => decide (m.src = .dead)) ∧
      Pairs (SameMessage db.mboxen db'.mboxen) (db.msgs.filter fun m => decide (m.src ≠ .dead)) db'.msgs ∧
      db'.mboxen = db.mboxen.filter (·.path.isSome) ∧
      GoodDb hash db' (keepOnly (keepMarks db.msgs) ix) := by
  obtain ⟨fuel0, hf⟩ := cull_spec h
  obtain ⟨db'', e', h1, h2, h3⟩ := hf (max fuel fuel0) (Nat.le_max_right ..)
  rw [cull_mono e _ (Nat.le_max_left ..)] at e'
  cases e'
  exact ⟨rfl, h1, h2, h3⟩

end Mairix
