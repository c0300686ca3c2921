import Verif.Spec.NfaText

/-! # The parser of dfasyn reads the declarations that are written -/

namespace Mairix
open Spec

theorem ok_bind {α β : Type} {x : Res α} {a : α} {f : α → Res β} (h : x = .ok a) : (x >>= f) = f a := by
  rw [h]; rfl

theorem expect_ok (k : NTok) (ts : List NTok) : expectTok k (k :: ts) = .ok ts := by
  simp [expectTok]

theorem sepBy_cons (sep : NTok) : ∀ (x : List NTok) (l : List (List NTok)), sepBy sep (x :: l) = x ++ l.flatMap (fun y => sep :: y)
  | x, [] => by simp [sepBy]
  | x, y :: l => by
    show x ++ sep :: sepBy sep (y :: l) = _
    rw [sepBy_cons sep y l]
    simp

theorem head_append {α : Type} {a : α} {l r : List α} (h : (l ++ r).head? = some a) : l.head? = some a ∨ (l = [] ∧ r.head? = some a) := by
  cases l with
  | nil => exact .inr ⟨rfl, h⟩
  | cons x l => exact .inl h

/-! ## Lists -/

theorem strsMore_read {sep : NTok} : ∀ (l : List Text) (f : Nat) (rest : List NTok), l.length < f → rest.head? ≠ some sep →
    pStrsMore sep f (l.flatMap (fun s => [sep, .str s]) ++ rest) = .ok (l, rest) := by
  intro l
  induction l with
  | nil =>
    intro f rest hf hr
    cases f with
    | zero => simp at hf
    | succ f =>
      show (if rest.head? = some sep then _ else _) = _
      rw [if_neg hr]
      rfl
  | cons s l ih =>
    intro f rest hf hr
    cases f with
    | zero => simp at hf
    | succ f =>
      show (if some sep = some sep then _ else _) = _
      rw [if_pos rfl]
      show (pStrsMore sep f (l.flatMap (fun s => [sep, .str s]) ++ rest) >>= _) = _
      rw [ok_bind (ih f rest (by simp at hf; omega) hr)]

theorem length_flatMap_le {α β : Type} {f : α → List β} {l : List α} (h : ∀ a ∈ l, f a ≠ []) : l.length ≤ (l.flatMap f).length := by
  induction l with
  | nil => simp
  | cons a l ih =>
    have := ih (fun b hb => h b (by simp [hb]))
    have : 0 < (f a).length := List.length_pos_iff.mpr (h a (by simp))
    rw [List.flatMap_cons, List.length_append, List.length_cons]
    omega

theorem nameList_cons (s : Text) (l : List Text) : nameList (s :: l) = .str s :: l.flatMap (fun s => [.comma, .str s]) := by
  unfold nameList
  rw [List.map_cons, sepBy_cons, List.flatMap_map]
  rfl

theorem names_more {l : List Text} {rest : List NTok} (hr : rest.head? ≠ some .comma) :
    pStrsMore .comma ((l.flatMap (fun s => [NTok.comma, .str s]) ++ rest).length + 1) (l.flatMap (fun s => [.comma, .str s]) ++ rest) = .ok (l, rest) := by
  refine strsMore_read l _ rest ?_ hr
  have := length_flatMap_le (f := fun s => [NTok.comma, .str s]) (l := l) (by simp)
  rw [List.length_append]
  omega

theorem names_read {l : List Text} {rest : List NTok} (hl : l ≠ []) (hr : rest.head? ≠ some .comma) : pNames (nameList l ++ rest) = .ok (l, rest) := by
  cases l with
  | nil => exact absurd rfl hl
  | cons s l =>
    rw [nameList_cons]
    show (pStrsMore .comma ((l.flatMap (fun s => [NTok.comma, .str s]) ++ rest).length + 1) (l.flatMap (fun s => [.comma, .str s]) ++ rest) >>= _) = _
    rw [ok_bind (names_more hr)]

theorem tokens_read : ∀ (l : List Text) (f : Nat) (rest : List NTok), l.length < f → (∀ s, rest.head? ≠ some (.str s)) →
    pTokens f (l.map .str ++ rest) = .ok (l, rest) := by
  intro l
  induction l with
  | nil =>
    intro f rest hf hr
    cases f with
    | zero => simp at hf
    | succ f =>
      rw [List.map_nil, List.nil_append]
      unfold pTokens
      split
      · simp at *
      · exact absurd rfl (hr _)
      · rfl
  | cons s l ih =>
    intro f rest hf hr
    cases f with
    | zero => simp at hf
    | succ f =>
      show (pTokens f (l.map .str ++ rest) >>= _) = _
      rw [ok_bind (ih f rest (by simp at hf; omega) hr)]

/-! ## Classes -/

theorem items_read : ∀ (l : List ClassItem) (f : Nat) (rest : List NTok), l.length < f →
    pItems f (l.flatMap itemText ++ .rsquare :: rest) = .ok (l, .rsquare :: rest) := by
  intro l
  induction l with
  | nil =>
    intro f rest hf
    cases f with
    | zero => simp at hf
    | succ f => rfl
  | cons i l ih =>
    intro f rest hf
    cases f with
    | zero => simp at hf
    | succ f =>
      have h := ih f rest (by simp at hf; omega)
      cases i with
      | range a b =>
        show (pItems f (l.flatMap itemText ++ .rsquare :: rest) >>= _) = _
        rw [ok_bind h]
      | single a =>
        have hh : ∃ k r, l.flatMap itemText ++ .rsquare :: rest = k :: r ∧ k ≠ .hyphen := by
          cases l with
          | nil => exact ⟨_, _, rfl, by simp⟩
          | cons j l =>
            cases j with
            | single b => exact ⟨_, _, rfl, by simp⟩
            | range b c => exact ⟨_, _, rfl, by simp⟩
        obtain ⟨k, r, hk, hne⟩ := hh
        show pItems (f + 1) (.chr a :: (l.flatMap itemText ++ .rsquare :: rest)) = _
        rw [hk] at h ⊢
        have hstep : pItems (f + 1) (.chr a :: k :: r) = (pItems f (k :: r) >>= fun x => match x with | (l, ts) => .ok (.single a :: l, ts)) := by
          cases k <;> first | rfl | exact absurd rfl hne
        rw [hstep, ok_bind h]

theorem item_ne (i : ClassItem) : itemText i ≠ [] := by cases i <;> simp [itemText]

theorem simpleRest_read {s : SimpleClass} (hs : s.items ≠ []) (rest : List NTok) :
    pSimpleRest s.caret (s.items.flatMap itemText ++ .rsquare :: rest) = .ok (s, rest) := by
  have hlen := length_flatMap_le (f := itemText) (l := s.items) (fun i _ => item_ne i)
  unfold pSimpleRest
  rw [ok_bind (items_read s.items _ rest (by rw [List.length_append]; omega))]
  dsimp only
  rw [ok_bind (expect_ok .rsquare rest), if_neg hs]

theorem simple_read {s : SimpleClass} (hs : s.items ≠ []) (rest : List NTok) : pSimple (simpleText s ++ rest) = .ok (s, rest) := by
  have h := simpleRest_read hs rest
  unfold simpleText
  cases hc : s.caret with
  | true =>
    rw [hc] at h
    simpa [pSimple] using h
  | false =>
    rw [hc] at h
    simpa [pSimple] using h

/-- The tokens a stimulus may begin with. -/
def stimStart : NTok → Bool
  | .str _ | .langle | .not | .lsquare | .lsquareCaret => true
  | _ => false

/-- The tokens a transition may begin with. -/
def transStart (k : NTok) : Bool := stimStart k || k == .pipe || k == .semicolon || k == .arrow || k == .equal

theorem classFrom_simple {s : SimpleClass} {rest : List NTok} (hr : ∀ k, rest.head? = some k → stimStart k = false) :
    pClassFrom s rest = .ok (.cls (.simple s), rest) := by
  unfold pClassFrom
  split
  · exact absurd (hr _ rfl) (by simp [stimStart])
  · rfl

theorem stim_simple (s : SimpleClass) (rest : List NTok) :
    pStim (simpleText s ++ rest) = (pSimpleRest s.caret (s.items.flatMap itemText ++ .rsquare :: rest) >>= fun x => match x with | (s, ts) => pClassFrom s ts) := by
  unfold simpleText
  cases hc : s.caret with
  | true => simp [pStim]
  | false => simp [pStim]

theorem stim_read {s : PStim} {rest : List NTok} (hs : StimFull s) (hr : ∀ k, rest.head? = some k → stimStart k = false) :
    pStim (stimText s ++ rest) = .ok (s, rest) := by
  cases s with
  | eps =>
    show pStim rest = _
    unfold pStim
    split
    · exact absurd (hr _ rfl) (by simp [stimStart])
    · exact absurd (hr _ rfl) (by simp [stimStart])
    · exact absurd (hr _ rfl) (by simp [stimStart])
    · exact absurd (hr _ rfl) (by simp [stimStart])
    · exact absurd (hr _ rfl) (by simp [stimStart])
    · rfl
  | word w => rfl
  | cls c =>
    cases c with
    | simple s =>
      show pStim (simpleText s ++ rest) = _
      rw [stim_simple, ok_bind (simpleRest_read hs rest)]
      exact classFrom_simple hr
    | negated s =>
      show (pSimple (simpleText s ++ rest) >>= _) = _
      rw [ok_bind (simple_read hs rest)]
    | minus s t =>
      show pStim ((simpleText s ++ .not :: simpleText t) ++ rest) = _
      rw [List.append_assoc, stim_simple, ok_bind (simpleRest_read hs.1 _)]
      show (pSimple (simpleText t ++ rest) >>= _) = _
      rw [ok_bind (simple_read hs.2 rest)]
  | inline a b c => rfl

/-! ## Transitions -/

/-- After a stimulus. -/
theorem altsMore_read : ∀ (l : List PStim) (f : Nat) (rest : List NTok), l.length < f → (∀ s ∈ l, StimFull s) →
    (∀ k, rest.head? = some k → stimStart k = false) → rest.head? ≠ some .pipe →
    pAltsMore f (l.flatMap (fun s => .pipe :: stimText s) ++ rest) = .ok (l, rest) := by
  intro l
  induction l with
  | nil =>
    intro f rest hf _ _ hp
    cases f with
    | zero => simp at hf
    | succ f =>
      show (if rest.head? = some .pipe then _ else _) = _
      rw [if_neg hp]
      rfl
  | cons s l ih =>
    intro f rest hf hs hr hp
    cases f with
    | zero => simp at hf
    | succ f =>
      have h := ih f rest (by simp at hf; omega) (fun s h => hs s (by simp [h])) hr hp
      have h1 : pStim (stimText s ++ (l.flatMap (fun s => .pipe :: stimText s) ++ rest)) = .ok (s, l.flatMap (fun s => .pipe :: stimText s) ++ rest) := by
        refine stim_read (hs s (by simp)) ?_
        intro k hk
        cases l with
        | nil => exact hr k hk
        | cons s' l =>
          cases hk
          rfl
      rw [List.flatMap_cons, List.append_assoc, List.cons_append]
      show (if some NTok.pipe = some NTok.pipe then _ else _) = _
      rw [if_pos rfl]
      show (pStim (stimText s ++ (l.flatMap (fun s => .pipe :: stimText s) ++ rest)) >>= _) = _
      rw [ok_bind h1]
      dsimp only
      rw [ok_bind h]

theorem altsText_cons (s : PStim) (l : List PStim) : altsText (s :: l) = stimText s ++ l.flatMap (fun s => .pipe :: stimText s) := by
  unfold altsText
  rw [List.map_cons, sepBy_cons, List.flatMap_map]

theorem alts_read {l : List PStim} {rest : List NTok} (hl : AltsFull l) (hr : ∀ k, rest.head? = some k → stimStart k = false)
    (hp : rest.head? ≠ some .pipe) : pAlts (altsText l ++ rest) = .ok (l, rest) := by
  cases l with
  | nil => exact absurd rfl hl.1
  | cons s l =>
    rw [altsText_cons, List.append_assoc]
    unfold pAlts
    have h1 : pStim (stimText s ++ (l.flatMap (fun s => .pipe :: stimText s) ++ rest)) = .ok (s, l.flatMap (fun s => .pipe :: stimText s) ++ rest) := by
      refine stim_read (hl.2 s (by simp)) ?_
      intro k hk
      cases l with
      | nil => exact hr k hk
      | cons s' l => cases hk; rfl
    have hlen := length_flatMap_le (f := fun s => .pipe :: stimText s) (l := l) (by simp)
    rw [ok_bind h1]
    dsimp only
    rw [ok_bind (altsMore_read l _ rest (by rw [List.length_append]; omega) (fun s h => hl.2 s (by simp [h])) hr hp)]

theorem seqMore_read : ∀ (l : List (List PStim)) (f : Nat) (rest : List NTok), l.length < f → (∀ s ∈ l, AltsFull s) →
    (∀ k, rest.head? = some k → k = .arrow ∨ k = .equal) →
    pSeqMore f (l.flatMap (fun s => .semicolon :: altsText s) ++ rest) = .ok (l, rest) := by
  intro l
  induction l with
  | nil =>
    intro f rest hf _ hr
    cases f with
    | zero => simp at hf
    | succ f =>
      show (if rest.head? = some .semicolon then _ else _) = _
      rw [if_neg (fun h => by rcases hr _ h with h | h <;> cases h)]
      rfl
  | cons s l ih =>
    intro f rest hf hs hr
    cases f with
    | zero => simp at hf
    | succ f =>
      have h := ih f rest (by simp at hf; omega) (fun s h => hs s (by simp [h])) hr
      have hend : ∀ k, (l.flatMap (fun s => .semicolon :: altsText s) ++ rest).head? = some k → k = .semicolon ∨ k = .arrow ∨ k = .equal := by
        intro k hk
        cases l with
        | nil => exact .inr (hr k hk)
        | cons s' l => cases hk; exact .inl rfl
      have h1 : pAlts (altsText s ++ (l.flatMap (fun s => .semicolon :: altsText s) ++ rest)) = .ok (s, l.flatMap (fun s => .semicolon :: altsText s) ++ rest) := by
        refine alts_read (hs s (by simp)) ?_ ?_
        · intro k hk
          rcases hend k hk with rfl | rfl | rfl <;> rfl
        · intro hk
          rcases hend _ hk with h | h | h <;> cases h
      rw [List.flatMap_cons, List.append_assoc, List.cons_append]
      show (if some NTok.semicolon = some NTok.semicolon then _ else _) = _
      rw [if_pos rfl]
      show (pAlts (altsText s ++ (l.flatMap (fun s => .semicolon :: altsText s) ++ rest)) >>= _) = _
      rw [ok_bind h1]
      dsimp only
      rw [ok_bind h]

/-- Where a transition goes, as tokens. -/
def goalText : PGoal → List NTok
  | .to l => .arrow :: nameList l
  | .tags l => .equal :: nameList l

theorem transText_eq (t : PTrans) : transText t = sepBy .semicolon (t.seq.map altsText) ++ goalText t.goal := by
  unfold transText goalText
  cases t.goal <;> rfl

theorem trans_read {t : PTrans} {rest : List NTok} (ht : TransFull t) (hr : rest.head? ≠ some .comma) : pTrans (transText t ++ rest) = .ok (t, rest) := by
  obtain ⟨seq, goal⟩ := t
  obtain ⟨h1, h2, h3⟩ := ht
  rw [transText_eq]
  dsimp only at h1 h2 h3 ⊢
  cases seq with
  | nil => exact absurd rfl h1
  | cons s l =>
    rw [List.map_cons, sepBy_cons, List.flatMap_map, List.append_assoc, List.append_assoc]
    have hg : ∀ k, (goalText goal ++ rest).head? = some k → k = .arrow ∨ k = .equal := by
      intro k hk
      cases goal <;> cases hk
      · exact .inl rfl
      · exact .inr rfl
    have hend : ∀ k, (l.flatMap (fun s => .semicolon :: altsText s) ++ (goalText goal ++ rest)).head? = some k → k = .semicolon ∨ k = .arrow ∨ k = .equal := by
      intro k hk
      cases l with
      | nil => exact .inr (hg k hk)
      | cons s' l => cases hk; exact .inl rfl
    have ha : pAlts (altsText s ++ (l.flatMap (fun s => .semicolon :: altsText s) ++ (goalText goal ++ rest))) =
        .ok (s, l.flatMap (fun s => .semicolon :: altsText s) ++ (goalText goal ++ rest)) := by
      refine alts_read (h2 s (by simp)) ?_ ?_
      · intro k hk
        rcases hend k hk with rfl | rfl | rfl <;> rfl
      · intro hk
        rcases hend _ hk with h | h | h <;> cases h
    have hlen := length_flatMap_le (f := fun s => .semicolon :: altsText s) (l := l) (by simp)
    unfold pTrans
    rw [ok_bind ha]
    dsimp only
    rw [ok_bind (seqMore_read l _ (goalText goal ++ rest) (by rw [List.length_append]; omega) (fun s h => h2 s (by simp [h])) hg)]
    dsimp only
    cases goal with
    | to g =>
      show (pNames (nameList g ++ rest) >>= _) = _
      rw [ok_bind (names_read (l := g) h3 hr)]
    | tags g =>
      show (pNames (nameList g ++ rest) >>= _) = _
      rw [ok_bind (names_read (l := g) h3 hr)]

theorem class_head (s : SimpleClass) : ∃ k r, simpleText s = k :: r ∧ stimStart k = true := by
  unfold simpleText
  cases s.caret
  · exact ⟨_, _, rfl, rfl⟩
  · exact ⟨_, _, rfl, rfl⟩

theorem stim_head {s : PStim} {k : NTok} (h : (stimText s).head? = some k) : stimStart k = true := by
  cases s with
  | eps => cases h
  | word w => cases h; rfl
  | cls c =>
    cases c with
    | simple s =>
      obtain ⟨k', r, h', hk⟩ := class_head s
      rw [show stimText (.cls (.simple s)) = k' :: r from h'] at h
      cases h; exact hk
    | negated s => cases h; rfl
    | minus s t =>
      obtain ⟨k', r, h', hk⟩ := class_head s
      have : stimText (.cls (.minus s t)) = (k' :: r) ++ .not :: simpleText t := by rw [← h']; rfl
      rw [this] at h
      cases h; exact hk
  | inline a b c => cases h; rfl

theorem trans_head {t : PTrans} (ht : TransFull t) : ∃ k r, transText t = k :: r ∧ transStart k = true := by
  obtain ⟨seq, goal⟩ := t
  obtain ⟨h1, h2, h3⟩ := ht
  have hgoal : ∃ k r, goalText goal = k :: r ∧ transStart k = true := by
    cases goal
    · exact ⟨_, _, rfl, rfl⟩
    · exact ⟨_, _, rfl, rfl⟩
  rw [transText_eq]
  dsimp only at h1 h2 h3 ⊢
  cases seq with
  | nil => exact absurd rfl h1
  | cons s l =>
    rw [List.map_cons, sepBy_cons, List.flatMap_map]
    cases s with
    | nil => exact absurd rfl (h2 [] (by simp)).1
    | cons st s =>
      rw [altsText_cons]
      cases hst : stimText st with
      | cons k r =>
        refine ⟨k, _, rfl, ?_⟩
        have := stim_head (s := st) (k := k) (by rw [hst]; rfl)
        simp [transStart, this]
      | nil =>
        cases s with
        | cons st' s => exact ⟨_, _, rfl, rfl⟩
        | nil =>
          cases l with
          | cons l1 l => exact ⟨_, _, rfl, rfl⟩
          | nil =>
            obtain ⟨k, r, hk, hs⟩ := hgoal
            exact ⟨k, r, by simpa using hk, hs⟩

theorem transitions_read : ∀ (l : List PTrans) (f : Nat) (rest : List NTok), l.length < f → (∀ t ∈ l, TransFull t) →
    (rest.head? = some .state ∨ rest.head? = some .rbrace) → pTransitions f (l.flatMap transText ++ rest) = .ok (l, rest) := by
  intro l
  induction l with
  | nil =>
    intro f rest hf _ hr
    cases f with
    | zero => simp at hf
    | succ f =>
      show (if rest.head? = some .state ∨ rest.head? = some .rbrace then _ else _) = _
      rw [if_pos hr]
      rfl
  | cons t l ih =>
    intro f rest hf ht hr
    cases f with
    | zero => simp at hf
    | succ f =>
      have h := ih f rest (by simp at hf; omega) (fun t h => ht t (by simp [h])) hr
      obtain ⟨k, r, hk, hks⟩ := trans_head (ht t (by simp))
      have h1 : pTrans (transText t ++ (l.flatMap transText ++ rest)) = .ok (t, l.flatMap transText ++ rest) := by
        refine trans_read (ht t (by simp)) ?_
        intro hc
        cases l with
        | nil =>
          rw [List.flatMap_nil, List.nil_append] at hc
          rw [hc] at hr
          rcases hr with hr | hr <;> cases hr
        | cons t' l =>
          obtain ⟨k', r', hk', hks'⟩ := trans_head (ht t' (by simp))
          rw [List.flatMap_cons, hk'] at hc
          cases hc
          cases hks'
      rw [List.flatMap_cons, List.append_assoc]
      unfold pTransitions
      rw [if_neg]
      · rw [ok_bind h1]
        dsimp only
        rw [ok_bind h]
      · rw [hk]
        rintro (h | h) <;> cases h <;> cases hks

theorem states_read : ∀ (l : List PState) (f : Nat) (rest : List NTok), l.length < f → (∀ s ∈ l, ∀ t ∈ s.trans, TransFull t) →
    pStates f (l.flatMap stateText ++ .rbrace :: rest) = .ok (l, .rbrace :: rest) := by
  intro l
  induction l with
  | nil =>
    intro f rest hf _
    cases f with
    | zero => simp at hf
    | succ f => rfl
  | cons s l ih =>
    intro f rest hf hs
    cases f with
    | zero => simp at hf
    | succ f =>
      have h := ih f rest (by simp at hf; omega) (fun s h => hs s (by simp [h]))
      have hr : (l.flatMap stateText ++ .rbrace :: rest).head? = some .state ∨ (l.flatMap stateText ++ .rbrace :: rest).head? = some .rbrace := by
        cases l with
        | nil => exact .inr rfl
        | cons s' l => exact .inl rfl
      have hlen := length_flatMap_le (f := transText) (l := s.trans) (fun t ht => by
        obtain ⟨k, r, hk, _⟩ := trans_head (hs s (by simp) t ht)
        rw [hk]; simp)
      have h1 := transitions_read s.trans ((s.trans.flatMap transText ++ (l.flatMap stateText ++ .rbrace :: rest)).length + 1) _
        (by rw [List.length_append]; omega) (hs s (by simp)) hr
      have he : pEntry (entryText s.entry ++ (s.trans.flatMap transText ++ (l.flatMap stateText ++ .rbrace :: rest))) =
          .ok (s.entry, s.trans.flatMap transText ++ (l.flatMap stateText ++ .rbrace :: rest)) := by
        cases s.entry with
        | some e => rfl
        | none =>
          show pEntry (s.trans.flatMap transText ++ (l.flatMap stateText ++ .rbrace :: rest)) = _
          have hne : (s.trans.flatMap transText ++ (l.flatMap stateText ++ .rbrace :: rest)).head? ≠ some .entry := by
            intro hc
            cases htr : s.trans with
            | nil =>
              rw [htr, List.flatMap_nil, List.nil_append] at hc
              rw [hc] at hr
              rcases hr with hr | hr <;> cases hr
            | cons t ts =>
              obtain ⟨k', r', hk', hks'⟩ := trans_head (hs s (by simp) t (by rw [htr]; simp))
              rw [htr, List.flatMap_cons, hk'] at hc
              cases hc
              cases hks'
          unfold pEntry
          split
          · rename_i heq; exact absurd (by rw [heq]; rfl) hne
          · rfl
      rw [List.flatMap_cons, List.append_assoc]
      unfold stateText
      simp only [List.cons_append, List.append_assoc]
      show (if some NTok.state = some NTok.state then _ else _) = _
      rw [if_pos rfl]
      show (pEntry (entryText s.entry ++ (s.trans.flatMap transText ++ (l.flatMap stateText ++ .rbrace :: rest))) >>= _) = _
      rw [ok_bind he]
      dsimp only
      rw [ok_bind h1]
      dsimp only
      rw [ok_bind h]

theorem instances_read : ∀ (l : List (Text × Text)) (f : Nat) (rest : List NTok), l.length < f → (∀ s, rest.head? ≠ some (.str s)) →
    pInstances f (l.flatMap (fun i => [.str i.1, .colon, .str i.2]) ++ rest) = .ok (l, rest) := by
  intro l
  induction l with
  | nil =>
    intro f rest hf hr
    cases f with
    | zero => simp at hf
    | succ f =>
      rw [List.flatMap_nil, List.nil_append]
      unfold pInstances
      split
      · simp at *
      · exact absurd rfl (hr _)
      · rfl
  | cons i l ih =>
    intro f rest hf hr
    cases f with
    | zero => simp at hf
    | succ f =>
      show (pInstances f (l.flatMap (fun i => [.str i.1, .colon, .str i.2]) ++ rest) >>= _) = _
      rw [ok_bind (ih f rest (by simp at hf; omega) hr)]

/-! ## Expressions -/

/-- The operators that would go on with an expression. -/
def levelOps : ELevel → List NTok
  | .unary => []
  | .and => [.and]
  | .xor => [.xor, .and]
  | .or => [.pipe, .xor, .and]
  | .cond => [.query, .pipe, .xor, .and]

def levelRank : ELevel → Nat
  | .unary => 1
  | .and => 2
  | .xor => 3
  | .or => 4
  | .cond => 5

def ExprStops (v : ELevel) (rest : List NTok) : Prop := ∀ k ∈ levelOps v, rest.head? ≠ some k

def Parses (v : ELevel) (e : TagExpr) (t : List NTok) : Prop :=
  ∀ f rest, 6 * t.length + levelRank v ≤ f → ExprStops v rest → pExpr f v (t ++ rest) = .ok (e, rest)

/-- A chain of operators of one level: the first operand, and the rest of the chain. -/
def Chained (op : NTok) (mk : TagExpr → TagExpr → TagExpr) (v : ELevel) (e : TagExpr) (t : List NTok) : Prop :=
  ∃ e0 t0 tail k, t = t0 ++ tail ∧ k ≤ tail.length ∧ Parses v e0 t0 ∧ (∀ rest, ExprStops v rest → ExprStops v (tail ++ rest)) ∧
    ∀ f m rest, 6 * t.length + levelRank v ≤ f → ExprStops v rest →
      pChain op mk (pExpr f v) (m + k) e0 (tail ++ rest) = pChain op mk (pExpr f v) m e rest

theorem chained_one {op : NTok} {mk : TagExpr → TagExpr → TagExpr} {v : ELevel} {e : TagExpr} {t : List NTok} (h : Parses v e t) : Chained op mk v e t :=
  ⟨e, t, [], 0, by simp, by simp, h, fun _ h => h, fun _ _ _ _ _ => rfl⟩

theorem chained_more {op : NTok} {mk : TagExpr → TagExpr → TagExpr} {v : ELevel} {a b : TagExpr} {t u : List NTok} (hop : op ∉ levelOps v)
    (ha : Chained op mk v a t) (hb : Parses v b u) : Chained op mk v (mk a b) (t ++ op :: u) := by
  obtain ⟨e0, t0, tail, k, rfl, hk, h0, hst, hch⟩ := ha
  refine ⟨e0, t0, tail ++ op :: u, k + 1, by simp, by simp; omega, h0, ?_, ?_⟩
  · intro rest _
    rw [List.append_assoc]
    refine hst _ ?_
    intro k' hk' hh
    cases hh
    exact hop hk'
  · intro f m rest hf hr
    have hs1 : ExprStops v (op :: u ++ rest) := by
      intro k' hk' hh
      cases hh
      exact hop hk'
    rw [List.append_assoc, show m + (k + 1) = (m + 1) + k by omega, hch f (m + 1) (op :: u ++ rest) (by simp at hf ⊢; omega) hs1]
    show (if some op = some op then _ else _) = _
    rw [if_pos rfl]
    show (pExpr f v (u ++ rest) >>= _) = _
    rw [ok_bind (hb f rest (by simp at hf; omega) hr)]

theorem chained_parses {op : NTok} {mk : TagExpr → TagExpr → TagExpr} {v w : ELevel} {e : TagExpr} {t : List NTok}
    (hdef : ∀ f ts, pExpr (f + 1) w ts = (pExpr f v ts >>= fun x => match x with | (a, ts) => pChain op mk (pExpr f v) (ts.length + 1) a ts))
    (hrank : levelRank v + 1 = levelRank w) (hops : levelOps w = op :: levelOps v) (h : Chained op mk v e t) : Parses w e t := by
  obtain ⟨e0, t0, tail, k, rfl, hk, h0, hst, hch⟩ := h
  intro f rest hf hr
  have hrv : ExprStops v rest := fun k hk => hr k (by rw [hops]; simp [hk])
  cases f with
  | zero => omega
  | succ f =>
    rw [hdef, List.append_assoc, ok_bind (h0 f (tail ++ rest) (by simp at hf; omega) (hst rest hrv))]
    dsimp only
    have hm : (tail ++ rest).length + 1 = ((tail ++ rest).length + 1 - k) + k := by rw [List.length_append]; omega
    rw [hm, hch f _ rest (by omega) hrv]
    have : (tail ++ rest).length + 1 - k = ((tail ++ rest).length - k) + 1 := by rw [List.length_append]; omega
    rw [this]
    show (if rest.head? = some op then _ else _) = _
    rw [if_neg (hr op (by rw [hops]; simp))]

theorem parses_and {e : TagExpr} {t : List NTok} (h : Chained .and .and .unary e t) : Parses .and e t := chained_parses (fun _ _ => rfl) rfl rfl h
theorem parses_xor {e : TagExpr} {t : List NTok} (h : Chained .xor .xor .and e t) : Parses .xor e t := chained_parses (fun _ _ => rfl) rfl rfl h
theorem parses_or {e : TagExpr} {t : List NTok} (h : Chained .pipe .or .xor e t) : Parses .or e t := chained_parses (fun _ _ => rfl) rfl rfl h

/-- What is proved of an expression of each level. -/
def ExprReads : ELevel → TagExpr → List NTok → Prop
  | .unary, e, t => Parses .unary e t
  | .and, e, t => Chained .and .and .unary e t
  | .xor, e, t => Chained .xor .xor .and e t
  | .or, e, t => Chained .pipe .or .xor e t
  | .cond, e, t => Parses .cond e t

theorem expr_reads {v : ELevel} {e : TagExpr} {t : List NTok} (h : ExprText v e t) : ExprReads v e t := by
  induction h with
  | tag s =>
    intro f rest hf _
    cases f with
    | zero => simp [levelRank] at hf
    | succ f => rfl
  | not _ ih =>
    rename_i t _
    intro f rest hf hr
    cases f with
    | zero => simp [levelRank] at hf
    | succ f =>
      show (pExpr f .unary (t ++ rest) >>= _) = _
      rw [ok_bind (ih f rest (by simp [levelRank] at hf ⊢; omega) hr)]
  | paren _ ih =>
    rename_i t _
    intro f rest hf hr
    cases f with
    | zero => simp [levelRank] at hf
    | succ f =>
      rw [List.cons_append, List.cons_append, List.append_assoc]
      show (pExpr f .cond (t ++ ([.rparen] ++ rest)) >>= _) = _
      rw [ok_bind (ih f ([NTok.rparen] ++ rest) (by simp [levelRank] at hf ⊢; omega) (by intro k hk hh; cases hh; revert hk; decide))]
      dsimp only
      rw [show [NTok.rparen] ++ rest = .rparen :: rest from rfl, ok_bind (expect_ok .rparen rest)]
  | and1 _ ih => exact chained_one ih
  | and _ _ iha ihb => exact chained_more (by decide) iha ihb
  | xor1 _ ih => exact chained_one (parses_and ih)
  | xor _ _ iha ihb => exact chained_more (by decide) iha (parses_and ihb)
  | or1 _ ih => exact chained_one (parses_xor ih)
  | or _ _ iha ihb => exact chained_more (by decide) iha (parses_xor ihb)
  | cond1 _ ih =>
    rename_i t _
    intro f rest hf hr
    cases f with
    | zero => simp [levelRank] at hf
    | succ f =>
      show (pExpr f .or (t ++ rest) >>= _) = _
      rw [ok_bind (parses_or ih f rest (by simp [levelRank] at hf ⊢; omega) (fun k hk => hr k (List.mem_cons_of_mem _ hk)))]
      dsimp only
      rw [if_neg (hr .query (by decide))]
  | cond _ _ _ ihc iha ihb =>
    rename_i t u v _ _ _
    intro f rest hf hr
    cases f with
    | zero => simp [levelRank] at hf
    | succ f =>
      rw [List.append_assoc, List.append_assoc]
      show (pExpr f .or (t ++ (.query :: u ++ (.colon :: v ++ rest))) >>= _) = _
      rw [ok_bind (parses_or ihc f _ (by simp [levelRank] at hf ⊢; omega) (by intro k hk hh; cases hh; revert hk; decide))]
      dsimp only
      rw [if_pos (show (NTok.query :: u ++ (NTok.colon :: v ++ rest)).head? = some NTok.query from rfl)]
      show (pExpr f .cond (u ++ (.colon :: v ++ rest)) >>= _) = _
      rw [ok_bind (iha f _ (by simp [levelRank] at hf ⊢; omega) (by intro k hk hh; cases hh; revert hk; decide))]
      dsimp only
      rw [List.cons_append, ok_bind (expect_ok .colon _), ok_bind (ihb f rest (by simp [levelRank] at hf ⊢; omega) hr)]

/-! ## Declarations -/

/-- The tokens that may come after a declaration. -/
def declEnds : List NTok := [.block, .tokens, .abbrev, .group, .tag, .prefix, .entrystruct, .attr, .early, .defattr, .type, .rbrace]

def Closes (rest : List NTok) : Prop := ∀ k, rest.head? = some k → k ∈ declEnds

theorem closes_ne {rest : List NTok} (h : Closes rest) {k : NTok} (hk : k ∉ declEnds) : rest.head? ≠ some k := fun hh => hk (h k hh)

theorem closes_str {rest : List NTok} (h : Closes rest) (s : Text) : rest.head? ≠ some (.str s) :=
  closes_ne h (by simp [declEnds])

theorem closes_stim {rest : List NTok} (h : Closes rest) : ∀ k, rest.head? = some k → stimStart k = false := by
  intro k hk
  exact (by decide : ∀ k ∈ declEnds, stimStart k = false) k (h k hk)

theorem expression_read {e : TagExpr} {t rest : List NTok} (h : ExprText .cond e t) (hr : Closes rest) : pExpression (t ++ rest) = .ok (e, rest) := by
  have hp : Parses .cond e t := expr_reads h
  refine hp _ rest (by simp [levelRank]; omega) ?_
  intro k hk
  exact closes_ne hr ((by decide : ∀ k ∈ levelOps .cond, k ∉ declEnds) k hk)

theorem attrRest_names (early : Bool) {l : List Text} {rest : List NTok} (hl : l ≠ []) (hr : Closes rest) :
    pAttrRest early (nameList l ++ rest) = .ok (.names early l, rest) := by
  cases l with
  | nil => exact absurd rfl hl
  | cons s l =>
    rw [nameList_cons]
    show (if (l.flatMap (fun s => [NTok.comma, .str s]) ++ rest).head? = some .colon then _ else _) = _
    rw [if_neg]
    · show (pStrsMore .comma ((l.flatMap (fun s => [NTok.comma, .str s]) ++ rest).length + 1) (l.flatMap (fun s => [.comma, .str s]) ++ rest) >>= _) = _
      rw [ok_bind (names_more (closes_ne hr (by decide)))]
    · cases l with
      | nil => exact closes_ne hr (by decide)
      | cons s l => exact (fun h => by cases h)

theorem attrRest_expr (early : Bool) (s : Text) {e : TagExpr} {t rest : List NTok} (h : ExprText .cond e t) (hr : Closes rest) :
    pAttrRest early (.str s :: .colon :: t ++ rest) = .ok (.expr early s e, rest) := by
  show (pExpression (t ++ rest) >>= _) = _
  rw [ok_bind (expression_read h hr)]

theorem attr_read {a : PAttr} {t rest : List NTok} (h : AttrText a t) (hr : Closes rest) : pAttr (t ++ rest) = some (.ok (a, rest)) := by
  cases h with
  | names early hl =>
    cases early with
    | true =>
      show some (pAttrRest true (nameList _ ++ rest)) = _
      rw [attrRest_names true hl hr]
    | false =>
      show some (pAttrRest false (nameList _ ++ rest)) = _
      rw [attrRest_names false hl hr]
  | expr early s he =>
    cases early with
    | true =>
      show some (pAttrRest true (.str s :: .colon :: _ ++ rest)) = _
      rw [attrRest_expr true s he hr]
    | false =>
      show some (pAttrRest false (.str s :: .colon :: _ ++ rest)) = _
      rw [attrRest_expr false s he hr]
  | default s => rfl
  | type s => rfl

theorem attr_head {a : PAttr} {t : List NTok} (h : AttrText a t) : ∃ k r, t = k :: r ∧ k ∈ declEnds := by
  cases h with
  | names early hl => cases early <;> exact ⟨_, _, rfl, by decide⟩
  | expr early s he => cases early <;> exact ⟨_, _, rfl, by decide⟩
  | default s => exact ⟨_, _, rfl, by decide⟩
  | type s => exact ⟨_, _, rfl, by decide⟩

theorem attrs_head {l : List PAttr} {t : List NTok} (h : AttrsText l t) (rest : List NTok) : Closes (t ++ .rbrace :: rest) := by
  cases h with
  | nil => intro k hk; cases hk; decide
  | cons ha _ =>
    obtain ⟨k', r, rfl, hk'⟩ := attr_head ha
    intro k hk
    cases hk
    exact hk'

theorem attrs_length {l : List PAttr} {t : List NTok} (h : AttrsText l t) : l.length ≤ t.length := by
  induction h with
  | nil => simp
  | cons ha _ ih =>
    obtain ⟨k', r, rfl, hk'⟩ := attr_head ha
    simp
    omega

theorem attrs_read {l : List PAttr} {t : List NTok} (h : AttrsText l t) : ∀ (f : Nat) (rest : List NTok), l.length < f →
    pAttrs f (t ++ .rbrace :: rest) = .ok (l, .rbrace :: rest) := by
  induction h with
  | nil =>
    intro f rest hf
    cases f with
    | zero => simp at hf
    | succ f => rfl
  | cons ha hl ih =>
    intro f rest hf
    cases f with
    | zero => simp at hf
    | succ f =>
      rw [List.append_assoc]
      unfold pAttrs
      rw [attr_read ha (attrs_head hl rest)]
      dsimp only
      rw [ok_bind rfl]
      dsimp only
      rw [ok_bind (ih f rest (by simp at hf; omega))]

theorem decl_attr {t : List NTok} {a : PAttr} {rest : List NTok} (h : pAttr t = some (.ok (a, rest))) : pDecl t = .ok (.attr a, rest) := by
  unfold pDecl
  split
  all_goals first | (cases h; done) | skip
  rw [h]
  rfl

theorem decl_read {d : PDecl} {t rest : List NTok} (h : DeclText d t) (hr : Closes rest) : pDecl (t ++ rest) = .ok (d, rest) := by
  cases h with
  | abbreviation s hl =>
    show (pAlts (altsText _ ++ rest) >>= _) = _
    rw [ok_bind (alts_read hl (closes_stim hr) (closes_ne hr (by decide)))]
  | tokens hl =>
    rename_i l
    cases l with
    | nil => exact absurd rfl hl
    | cons s l =>
      show (pTokens ((l.map NTok.str ++ rest).length + 1) (l.map .str ++ rest) >>= _) = _
      rw [ok_bind (tokens_read l _ rest (by simp; omega) (closes_str hr))]
  | block s is hs =>
    rename_i ss
    simp only [List.cons_append, List.append_assoc]
    have hlen := length_flatMap_le (f := fun i : Text × Text => [NTok.str i.1, .colon, .str i.2]) (l := is) (by simp)
    have hlen2 := length_flatMap_le (f := stateText) (l := ss) (by simp [stateText])
    have hstr : ∀ w, (ss.flatMap stateText ++ ([NTok.rbrace] ++ rest)).head? ≠ some (.str w) := by
      intro w
      cases ss with
      | nil => exact (fun h => by cases h)
      | cons s' ss => exact (fun h => by cases h)
    have h1 := instances_read is ((is.flatMap (fun i : Text × Text => [NTok.str i.1, .colon, .str i.2]) ++ (ss.flatMap stateText ++ ([NTok.rbrace] ++ rest))).length + 1)
      (ss.flatMap stateText ++ ([NTok.rbrace] ++ rest)) (by rw [List.length_append]; omega) hstr
    have h2 := states_read ss ((ss.flatMap stateText ++ ([NTok.rbrace] ++ rest)).length + 1) rest (by rw [List.length_append]; omega) hs
    show (pInstances ((is.flatMap (fun i : Text × Text => [NTok.str i.1, .colon, .str i.2]) ++ (ss.flatMap stateText ++ ([NTok.rbrace] ++ rest))).length + 1)
      (is.flatMap (fun i : Text × Text => [NTok.str i.1, .colon, .str i.2]) ++ (ss.flatMap stateText ++ ([NTok.rbrace] ++ rest))) >>= _) = _
    rw [ok_bind h1]
    show (pStates ((ss.flatMap stateText ++ ([NTok.rbrace] ++ rest)).length + 1) (ss.flatMap stateText ++ (.rbrace :: rest)) >>= _) = _
    rw [ok_bind h2]
    dsimp only
    rw [ok_bind (expect_ok .rbrace rest)]
  | attr ha => exact decl_attr (attr_read ha hr)
  | group s hl =>
    rename_i l t
    simp only [List.cons_append, List.append_assoc]
    have hlen := attrs_length hl
    show (pAttrs ((t ++ ([NTok.rbrace] ++ rest)).length + 1) (t ++ (.rbrace :: rest)) >>= _) = _
    rw [ok_bind (attrs_read hl _ rest (by rw [List.length_append]; omega))]
    dsimp only
    rw [ok_bind (expect_ok .rbrace rest)]
  | tag s he =>
    show (pExpression (_ ++ rest) >>= _) = _
    rw [ok_bind (expression_read he hr)]
  | «prefix» s => rfl
  | entrystruct a b => rfl

theorem decl_head {d : PDecl} {t : List NTok} (h : DeclText d t) : ∃ k r, t = k :: r ∧ k ∈ declEnds := by
  cases h with
  | abbreviation => exact ⟨_, _, rfl, by decide⟩
  | tokens => exact ⟨_, _, rfl, by decide⟩
  | block => exact ⟨_, _, rfl, by decide⟩
  | attr ha => exact attr_head ha
  | group => exact ⟨_, _, rfl, by decide⟩
  | tag => exact ⟨_, _, rfl, by decide⟩
  | «prefix» => exact ⟨_, _, rfl, by decide⟩
  | entrystruct => exact ⟨_, _, rfl, by decide⟩

theorem file_closes {l : List PDecl} {t : List NTok} (h : FileText l t) : Closes t := by
  cases h with
  | nil => intro k hk; cases hk
  | cons hd _ =>
    obtain ⟨k', r, rfl, hk'⟩ := decl_head hd
    intro k hk
    cases hk
    exact hk'

theorem file_read {l : List PDecl} {t : List NTok} (h : FileText l t) : ∀ f, t.length ≤ f → pDecls f t = .ok l := by
  induction h with
  | nil => intro f _; cases f <;> rfl
  | cons hd hl ih =>
    rename_i d l t u
    intro f hf
    have h1 := decl_read hd (file_closes hl)
    obtain ⟨k', r, rfl, hk'⟩ := decl_head hd
    cases f with
    | zero => simp at hf
    | succ f =>
      show (pDecl ((k' :: r) ++ u) >>= _) = _
      rw [ok_bind h1]
      dsimp only
      rw [ok_bind (ih f (by simp at hf; omega))]

end Mairix
