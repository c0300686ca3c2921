import Verif.Proofs.Threading
import Verif.Props.TokTable

/-!
# C08: threads
-/

namespace Mairix
open Spec

theorem shareId_symm {mail : Mail} {a b : Nat} (h : ShareId mail a b) : ShareId mail b a := by
  obtain ⟨wi, wj, h1, h2, w, h3, h4⟩ := h
  exact ⟨wj, wi, h2, h1, w, h4, h3⟩

/-- Threading a table that is the index of the ids of `mail`. -/
theorem findThreading_rep {hash : Text → Nat} {t : Table Matches2} {mail : IdMail} (h : RepIds hash t mail)
    (tids : List Nat) (hn : tids.length = mail.length) :
    ∃ tids', findThreading t tids = .ok tids' ∧ tids'.length = mail.length ∧
      (∀ (i j ti tj : Nat), tids'[i]? = some ti → tids'[j]? = some tj →
        (ti = tj ↔ Chain (ShareId (idsMentioned mail)) i j)) ∧
      ∃ first : Nat → Bool,
        (∀ i, i < mail.length → (first i = true ↔ FirstInThread (ShareId (idsMentioned mail)) i)) ∧
        ∀ (i ti : Nat), tids'[i]? = some ti → first i = true → ti = ((List.range i).filter first).length := by
  have hids := h.ids.2
  have hl : ∀ l, l ∈ ((t.slots.filterMap id).map fun e => readAll e.data.match0.bytes) ↔
      ∃ w l1, (w, l, l1) ∈ tableIds t := by
    intro l
    simp only [tableIds, ents, List.mem_map]
    constructor
    · rintro ⟨e, he, rfl⟩; exact ⟨_, _, e, he, rfl⟩
    · rintro ⟨w, l1, e, he, h⟩; cases h; exact ⟨e, he, rfl⟩
  have hlen : (idsMentioned mail).length = mail.length := by simp [idsMentioned]
  obtain ⟨tids', h1, h2, h3, h4⟩ := threadLists_spec (R := ShareId (idsMentioned mail))
    (fun a b h => shareId_symm h) _ tids
    (by
      intro l hl' x hx
      obtain ⟨w, l1, hw⟩ := (hl l).mp hl'
      obtain ⟨_, ⟨_, hm⟩, _⟩ := (hids w l l1).mp hw
      obtain ⟨ws, hg, _⟩ := (hm x).mp hx
      have := (List.getElem?_eq_some_iff.mp hg).1
      omega)
    (by
      intro x y
      constructor
      · rintro ⟨wi, wj, a1, a2, w, a3, a4⟩
        have hx : x ∈ listing (idsMentioned mail) w := mem_listing.mpr ⟨wi, a1, a3⟩
        have hy : y ∈ listing (idsMentioned mail) w := mem_listing.mpr ⟨wj, a2, a4⟩
        refine ⟨listing (idsMentioned mail) w, (hl _).mpr ⟨w, listing (idsOwn mail) w, ?_⟩, hx, hy⟩
        rw [hids]
        exact ⟨fun hc => by rw [hc] at hx; simp at hx, listing_isListing _ _, listing_isListing _ _⟩
      · rintro ⟨l, hl', hx, hy⟩
        obtain ⟨w, l1, hw⟩ := (hl l).mp hl'
        obtain ⟨_, ⟨_, hm⟩, _⟩ := (hids w l l1).mp hw
        obtain ⟨wi, a1, a2⟩ := (hm x).mp hx
        obtain ⟨wj, a3, a4⟩ := (hm y).mp hy
        exact ⟨wi, wj, a1, a3, w, a2, a4⟩)
  rw [hn] at h2 h4
  exact ⟨tids', h1, h2, h3, h4⟩

/-- All thread numbers are below the number of messages. -/
theorem tids_lt {mail : IdMail} {tids' : List Nat} (e2 : tids'.length = mail.length)
    (e3 : ∀ (i j ti tj : Nat), tids'[i]? = some ti → tids'[j]? = some tj →
      (ti = tj ↔ Chain (ShareId (idsMentioned mail)) i j)) {first : Nat → Bool}
    (e4 : ∀ i, i < mail.length → (first i = true ↔ FirstInThread (ShareId (idsMentioned mail)) i))
    (e5 : ∀ (i ti : Nat), tids'[i]? = some ti → first i = true → ti = ((List.range i).filter first).length) :
    ∀ ti ∈ tids', ti < mail.length := by
  intro ti hti
  obtain ⟨i, hi, rfl⟩ := List.getElem_of_mem hti
  -- the first message of the thread of `i`
  have : ∃ r, r ≤ i ∧ Chain (ShareId (idsMentioned mail)) i r ∧ FirstInThread (ShareId (idsMentioned mail)) r := by
    have hex : ∃ r, Chain (ShareId (idsMentioned mail)) i r := ⟨i, .refl _⟩
    have key : ∀ n r, r ≤ n → Chain (ShareId (idsMentioned mail)) i r →
        ∃ r', r' ≤ r ∧ Chain (ShareId (idsMentioned mail)) i r' ∧ FirstInThread (ShareId (idsMentioned mail)) r' := by
      intro n
      induction n with
      | zero =>
        intro r hr hc
        exact ⟨r, Nat.le_refl _, hc, fun j _ => by omega⟩
      | succ n ih =>
        intro r hr hc
        by_cases hf : FirstInThread (ShareId (idsMentioned mail)) r
        · exact ⟨r, Nat.le_refl _, hc, hf⟩
        · simp only [FirstInThread, Classical.not_forall] at hf
          obtain ⟨j, hj, hlt⟩ := hf
          obtain ⟨r', a, b, c⟩ := ih j (by omega) (Chain.trans hc (hj.symm (fun _ _ h => shareId_symm h)))
          exact ⟨r', by omega, b, c⟩
    exact key i i (Nat.le_refl _) (.refl _)
  obtain ⟨r, hr1, hr2, hr3⟩ := this
  have hrl : r < tids'.length := by omega
  have heq := (e3 i r _ _ (List.getElem?_eq_getElem hi) (List.getElem?_eq_getElem hrl)).mpr hr2
  rw [heq, e5 r _ (List.getElem?_eq_getElem hrl) ((e4 r (by omega)).mpr hr3)]
  have := List.length_filter_le first (List.range r)
  simp at this
  omega

/-- **C08**. After every history of the message id table (`ops`, giving the messages `mail` and the
ids they mention), threading succeeds whatever the old thread numbers are, two messages get the same
thread number iff they are linked by a chain of messages in which neighbours mention a common
identifier, and the first message of each thread has as thread number the number of threads whose
first message comes earlier; all numbers are below the number of messages. -/
theorem C08_threads (hash : Text → Nat) (ops : List IdOp) (mail : IdMail)
    (hpossible : idMailRun ops [] = some mail) (hjunk : JunkOk ops []) :
    ∃ fuel0, ∀ fuel ≥ fuel0, ∃ t, idRun hash fuel ops (0, newTable) = .ok (mail.length, t) ∧
      ∀ tids : List Nat, tids.length = mail.length →
        ∃ tids', findThreading t tids = .ok tids' ∧ tids'.length = mail.length ∧
          (∀ (i j ti tj : Nat), tids'[i]? = some ti → tids'[j]? = some tj →
            (ti = tj ↔ Chain (ShareId (idsMentioned mail)) i j)) ∧
          (∃ first : Nat → Bool,
            (∀ i, i < mail.length → (first i = true ↔ FirstInThread (ShareId (idsMentioned mail)) i)) ∧
            ∀ (i ti : Nat), tids'[i]? = some ti → first i = true →
              ti = ((List.range i).filter first).length) ∧
          ∀ ti ∈ tids', ti < mail.length := by
  obtain ⟨f0, h⟩ := idHistory_rep (hash := hash) ops [] mail newTable (RepIds.new hash) (by simp) hjunk hpossible
  refine ⟨f0, fun fuel hge => ?_⟩
  obtain ⟨t, h1, h2, _⟩ := h fuel hge
  refine ⟨t, by simpa using h1, fun tids hn => ?_⟩
  obtain ⟨tids', e1, e2, e3, first, e4, e5⟩ := findThreading_rep h2 tids hn
  exact ⟨tids', e1, e2, e3, ⟨first, e4, e5⟩, tids_lt e2 e3 e4 e5⟩

/-- A chain over a message that arrives later: 0 and 2 are linked through 3; 1 is alone. -/
example : threadLists [[0, 3], [2, 3], [1]] [0, 0, 0, 0] = .ok [0, 1, 0, 0] := by decide

/-- The hypotheses of the theorem are met by histories with all operations: see the example for
`C05_id_history_partial`. Here is a possible history with a thread through a reference. -/
example : idMailRun [.newMessage, .id (bs "a") true, .newMessage, .id (bs "b") true, .newMessage,
      .id (bs "c") true, .id (bs "a") false] [] =
        some [[(bs "a", true)], [(bs "b", true)], [(bs "a", false), (bs "c", true)]] ∧
    JunkOk [.newMessage, .id (bs "a") true, .newMessage, .id (bs "b") true, .newMessage,
      .id (bs "c") true, .id (bs "a") false] [] := by
  refine ⟨by decide, ?_⟩
  simp [JunkOk, idMailStep, addId]

end Mairix
