import Verif.Spec.Posted
import Verif.Props.BoxWhole
import Verif.Props.Whole
import Verif.Proofs.Output
import Verif.Props.FromLine

/-!
# Mail delivered to an mbox: proofs
-/

namespace Mairix
open Spec

/-- The places of all deliveries after `base` bytes. -/
def placesFrom : Nat → List Posted → List ((Nat × Nat) × Posted)
  | _, [] => []
  | base, m :: ms => ((base + (bs "From ").length + m.line.length + 1, m.text.length), m) :: placesFrom (base + m.bytes.length) ms

theorem boxBytes_cons (m : Posted) (ms : List Posted) : boxBytes (m :: ms) = m.bytes ++ boxBytes ms := by simp [boxBytes]

theorem placesFrom_get {ms : List Posted} {k : Nat} {m : Posted} (h : ms[k]? = some m) (base : Nat) :
    (placesFrom base ms)[k]? = some ((base + (placeOf ms k m).1, (placeOf ms k m).2), m) := by
  induction ms generalizing k base with
  | nil => simp at h
  | cons a ms ih =>
    cases k with
    | zero =>
      simp only [List.getElem?_cons_zero, Option.some.injEq] at h
      subst h
      simp [placesFrom, placeOf, boxBytes]; omega
    | succ k =>
      rw [List.getElem?_cons_succ] at h
      simp only [placesFrom, List.getElem?_cons_succ, ih h]
      simp only [placeOf, List.take_succ_cons, boxBytes_cons, List.length_append, Option.some.injEq, Prod.mk.injEq, and_true]
      omega

theorem placesFrom_mem {ms : List Posted} {base : Nat} {x : (Nat × Nat) × Posted} (h : x ∈ placesFrom base ms) :
    ∃ k, ms[k]? = some x.2 ∧ x.1 = (base + (placeOf ms k x.2).1, (placeOf ms k x.2).2) := by
  obtain ⟨k, hk⟩ := List.getElem?_of_mem h
  have hlen : (placesFrom base ms).length = ms.length := by
    clear h hk
    induction ms generalizing base with
    | nil => rfl
    | cons a ms ih => simp [placesFrom, ih]
  have hlt : k < ms.length := by rw [← hlen]; exact (List.getElem?_eq_some_iff.1 hk).1
  have h1 := placesFrom_get (List.getElem?_eq_getElem hlt) base
  rw [hk] at h1
  cases h1
  exact ⟨k, List.getElem?_eq_getElem hlt, rfl⟩

theorem posted_from (m : Posted) : m.bytes = bs "From " ++ m.line ++ [0x0a] ++ m.text := by simp [Posted.bytes]

/-- How an mbox is split into its deliveries. -/
theorem splits_posted {mktime : Nat → Nat → Nat → Int} (ms : List Posted) (h : ∀ m ∈ ms, m.Ok mktime) : ∀ (pre : Text),
    Splits fromCheck (pre ++ boxBytes ms) pre.length ((placesFrom pre.length ms).map (·.1)) := by
  induction ms with
  | nil =>
    intro pre
    refine .none ?_
    rintro p hp ⟨_, rest, h1, _⟩
    rw [show boxBytes [] = [] from rfl, List.append_nil, List.drop_eq_nil_of_le hp, fromBytes] at h1
    cases h1
  | cons m ms ih =>
    intro pre
    have hm := h m (by simp)
    obtain ⟨wb, hwb⟩ := hm.ends
    have hl5 : (bs "From ").length = 5 := by decide
    generalize hfl : bs "From " ++ m.line ++ [0x0a] = fl
    have hfll : fl.length = (bs "From ").length + m.line.length + 1 := by rw [← hfl]; simp; omega
    have hb : m.bytes = fl ++ m.text := by rw [posted_from, hfl]
    have hva : pre ++ boxBytes (m :: ms) = (pre ++ fl) ++ (m.text ++ boxBytes ms) := by
      rw [boxBytes_cons, hb]; simp
    have hva' : pre ++ boxBytes (m :: ms) = (pre ++ m.bytes) ++ boxBytes ms := by rw [boxBytes_cons]; simp
    have hdrop : (pre ++ boxBytes (m :: ms)).drop pre.length = fl ++ (m.text ++ boxBytes ms) := by
      rw [hva, List.append_assoc, List.drop_left]
    have hfirst : First (FromLine fromCheck (pre ++ boxBytes (m :: ms)) pre.length) pre.length pre.length := by
      refine ⟨Nat.le_refl _, ⟨.inl rfl, m.line ++ ([0x0a] ++ (m.text ++ boxBytes ms)), ?_, From.fromCheck_append _ hm.isFrom⟩, fun q h1 h2 => by omega⟩
      rw [hdrop, ← hfl]; simp
    have hnext : NextLine (pre ++ boxBytes (m :: ms)) pre.length (pre ++ fl).length := by
      refine ⟨bs "From " ++ m.line, m.text ++ boxBytes ms, ?_, ?_, ?_⟩
      · rw [hdrop, ← hfl]; simp
      · simp only [List.mem_append, not_or]; exact ⟨by decide, hm.oneLine⟩
      · simp only [List.length_append, hfll]; omega
    have hpos : 0 < m.text.length := by rw [hwb]; simp
    have hlt : (pre ++ fl).length < (pre ++ boxBytes (m :: ms)).length := by
      rw [hva, List.length_append (as := pre ++ fl), List.length_append (as := m.text)]; omega
    have hno : ∀ q, (pre ++ fl).length ≤ q → q < (pre ++ fl).length + m.text.length →
        ¬ FromLine fromCheck (pre ++ boxBytes (m :: ms)) (pre ++ fl).length q := by
      intro q h1 h2 hq
      obtain ⟨k, rfl⟩ : ∃ k, q = (pre ++ fl).length + k := ⟨q - (pre ++ fl).length, by omega⟩
      refine hm.quoted k (fromLine_cut (b := boxBytes ms) (.inr (.inr ⟨wb, hwb⟩)) ?_ (by omega))
      obtain ⟨hl, rest, e1, e2⟩ := hq
      refine ⟨?_, rest, ?_, e2⟩
      · rcases hl with hl | ⟨hl, hl'⟩
        · exact .inl (by omega)
        · refine .inr ⟨by omega, ?_⟩
          rw [hva, List.getElem?_append_right (by omega)] at hl'
          rw [← hl']
          congr 1
          omega
      · rw [← e1, hva, ← List.drop_drop, List.drop_left]
    have hplace : pre.length + (bs "From ").length + m.line.length + 1 = (pre ++ fl).length := by
      rw [List.length_append, hfll]; omega
    cases ms with
    | nil =>
      have hlen : (pre ++ boxBytes [m]).length = (pre ++ fl).length + m.text.length := by
        rw [hva, show boxBytes [] = [] from rfl, List.append_nil, List.length_append (as := pre ++ fl)]
      have : Splits fromCheck (pre ++ boxBytes [m]) pre.length [((pre ++ fl).length, (pre ++ boxBytes [m]).length - (pre ++ fl).length)] := by
        refine .last hfirst hnext hlt ?_
        intro q h1 hq
        apply hno q h1 ?_ hq
        obtain ⟨_, rest, e1, _⟩ := hq
        have := congrArg List.length e1
        rw [List.length_drop, hlen, List.length_append (as := bs "From "), hl5] at this
        omega
      simp only [placesFrom, List.map_cons, List.map_nil, hplace]
      rw [hlen, Nat.add_sub_cancel_left] at this
      exact this
    | cons g ms =>
      have hs := ih (fun f hf => h f (by simp [hf])) (pre ++ m.bytes)
      rw [← hva'] at hs
      have hgo := h g (by simp)
      have hbl : (pre ++ m.bytes).length = (pre ++ fl).length + m.text.length := by rw [hb]; simp only [List.length_append]; omega
      have hg : First (FromLine fromCheck (pre ++ boxBytes (m :: g :: ms)) (pre ++ fl).length) (pre ++ fl).length (pre ++ m.bytes).length := by
        refine ⟨by omega, ⟨.inr ⟨by omega, ?_⟩, g.line ++ ([0x0a] ++ (g.text ++ boxBytes ms)), ?_, From.fromCheck_append _ hgo.isFrom⟩, ?_⟩
        · rw [hva', List.getElem?_append_left (by omega), hb, hwb, ← List.append_assoc, ← List.append_assoc]
          have : (pre ++ fl ++ wb ++ [(0x0a : UInt8)]).length - 1 = (pre ++ fl ++ wb).length := by
            rw [List.length_append (as := pre ++ fl ++ wb)]; simp
          rw [this, List.getElem?_append_right (Nat.le_refl _), Nat.sub_self]
          rfl
        · rw [hva', List.drop_left, boxBytes_cons, posted_from]; simp
        · intro q h1 h2
          exact hno q h1 (by omega)
      have : Splits fromCheck (pre ++ boxBytes (m :: g :: ms)) pre.length (((pre ++ fl).length, (pre ++ m.bytes).length - (pre ++ fl).length) ::
          (placesFrom (pre ++ m.bytes).length (g :: ms)).map (·.1)) := .more hfirst hnext hlt hg hs
      rw [show placesFrom pre.length (m :: g :: ms) = ((pre.length + (bs "From ").length + m.line.length + 1, m.text.length), m) ::
        placesFrom (pre.length + m.bytes.length) (g :: ms) from rfl, List.map_cons, hplace, ← List.length_append]
      rw [hbl, Nat.add_sub_cancel_left, ← hbl] at this
      exact this

/-- What lies at the places. -/
theorem placesFrom_text (ms : List Posted) : ∀ (pre : Text), ∀ x ∈ placesFrom pre.length ms,
    between (pre ++ boxBytes ms) x.1.1 (x.1.1 + x.1.2) = x.2.text ∧ x.2 ∈ ms := by
  induction ms with
  | nil => intro pre x hx; cases hx
  | cons m ms ih =>
    intro pre x hx
    have hva' : pre ++ boxBytes (m :: ms) = (pre ++ m.bytes) ++ boxBytes ms := by rw [boxBytes_cons]; simp
    rcases List.mem_cons.1 hx with rfl | hx
    · refine ⟨?_, by simp⟩
      have hb : pre ++ m.bytes = (pre ++ (bs "From " ++ m.line ++ [0x0a])) ++ m.text := by rw [posted_from]; simp
      have hl : pre.length + (bs "From ").length + m.line.length + 1 = (pre ++ (bs "From " ++ m.line ++ [0x0a])).length := by simp; omega
      simp only [hl, between, hva', hb]
      rw [List.append_assoc (pre ++ _) m.text, List.drop_left, Nat.add_sub_cancel_left, List.take_left]
    · rw [← List.length_append] at hx
      obtain ⟨h1, h2⟩ := ih (pre ++ m.bytes) x hx
      rw [hva']
      exact ⟨h1, by simp [h2]⟩

theorem grouped_all {w : MboxWorld} {va : Text} (l : List ((Nat × Nat) × Posted))
    (h : ∀ x ∈ l, w.parse (between va x.1.1 (x.1.1 + x.1.2)) = (some x.2.meaning, false)) :
    Grouped w va (l.map (·.1)) (l.map fun x => (x.1, some x.2.meaning)) := by
  induction l with
  | nil => exact .nil
  | cons x l ih =>
    have hx := h x (by simp)
    have := Grouped.joined (w := w) (va := va) (s := x.1.1) (l := x.1.2) (rest := l.map (·.1)) (j := 0) (c := x.1)
      (more := l.map fun x => (x.1, some x.2.meaning)) rfl (by omega) (fun i c' hi => by omega) (by rw [hx])
      (by rw [List.drop_zero]; exact ih fun y hy => h y (by simp [hy]))
    rw [hx, Nat.add_sub_cancel_left] at this
    exact this

theorem boxBytes_mmdf (ms : List Posted) : ¬ Mmdf (boxBytes ms) := by
  rintro ⟨h1, h2⟩
  cases ms with
  | nil => simp [boxBytes] at h1
  | cons m ms =>
    rw [boxBytes_cons, Posted.bytes, List.append_assoc, show (5 : Nat) = (bs "From ").length from by decide, List.take_left] at h2
    exact absurd h2 (by decide)

theorem fromCheck_byLine : ByLine fromCheck := fun a b b' _ => by rw [C50_one_line, C50_one_line]

/-- The messages an mbox holds on a disk. -/
theorem boxNow_holds {mktime : Nat → Nat → Nat → Int} {md5 : Text → List UInt8} {d : Disc} {p : Text} {ms : List Posted} (hd : DiscOk d) (h : MboxAt d p ms)
    (hms : ∀ m ∈ ms, m.Ok mktime) : d.map p = (if ms = [] then .empty else .data (boxBytes ms)) ∧
      BoxMessages (d.mboxWorld mktime md5) (boxBytes ms) ((placesFrom 0 ms).map fun x => (x.1, some x.2.meaning)) := by
  obtain ⟨sb, h1, h2⟩ := h.file
  have hsz := (hd.size _ _ h.data).1
  constructor
  · simp only [Disc.map, h1, h2, hsz, h.data, ne_eq, not_true_eq_false, if_false]
    cases ms with
    | nil => rfl
    | cons m ms =>
      rw [if_neg, if_neg (by simp)]
      rw [boxBytes_cons, List.length_append, Posted.bytes]
      simp only [List.length_append, List.length_cons]
      omega
  · refine ⟨_, splits_posted ms hms [], grouped_all _ ?_⟩
    intro x hx
    obtain ⟨h3, h4⟩ := placesFrom_text ms [] x hx
    simp only [List.nil_append] at h3
    rw [h3]
    show outcome (parseMessage mktime x.2.text _) = _
    rw [C47_parse_partial (hms _ h4).means]
    rfl

end Mairix
