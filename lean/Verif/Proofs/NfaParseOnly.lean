import Verif.Proofs.NfaParse
import Verif.Proofs.CullFuel

/-! # The parser of dfasyn accepts nothing else -/

namespace Mairix
open Spec

theorem str_only {ts r : List NTok} {s : Text} (h : pStr ts = .ok (s, r)) : ts = .str s :: r := by
  unfold pStr at h
  split at h
  · injection h with h; injection h with h1 h2; subst h1; subst h2; rfl
  · cases h

theorem expect_only {k : NTok} {ts r : List NTok} (h : expectTok k ts = .ok r) : ts = k :: r := by
  unfold expectTok at h
  split at h
  · split at h
    · rename_i hk; injection h with h; subst h; subst hk; rfl
    · cases h
  · cases h

theorem head_tail {α : Type} {k : α} {ts : List α} (h : ts.head? = some k) : ts = k :: ts.tail := by
  cases ts with
  | nil => cases h
  | cons a ts => cases h; rfl

theorem strsMore_only {sep : NTok} : ∀ (f : Nat) {ts r : List NTok} {l : List Text}, pStrsMore sep f ts = .ok (l, r) →
    ts = l.flatMap (fun s => [sep, .str s]) ++ r
  | 0, _, _, _, h => by cases h
  | f + 1, ts, r, l, h => by
    unfold pStrsMore at h
    split at h
    · rename_i hh
      obtain ⟨⟨s, t1⟩, h1, h⟩ := res_bind_ok h
      obtain ⟨⟨l', t2⟩, h2, h⟩ := res_bind_ok h
      cases h
      rw [head_tail hh, str_only h1, strsMore_only f h2]
      rfl
    · cases h; rfl

theorem names_only {ts r : List NTok} {l : List Text} (h : pNames ts = .ok (l, r)) : l ≠ [] ∧ ts = nameList l ++ r := by
  obtain ⟨⟨s, t1⟩, h1, h⟩ := res_bind_ok h
  obtain ⟨⟨l', t2⟩, h2, h⟩ := res_bind_ok h
  cases h
  refine ⟨by simp, ?_⟩
  rw [nameList_cons, str_only h1]
  try dsimp only at h2
  rw [strsMore_only _ h2]
  rfl

theorem tokens_only : ∀ (f : Nat) {ts r : List NTok} {l : List Text}, pTokens f ts = .ok (l, r) → ts = l.map .str ++ r
  | 0, _, _, _, h => by cases h
  | f + 1, ts, r, l, h => by
    unfold pTokens at h
    split at h
    · cases ‹_ + 1 = 0›
    · rename_i heq
      obtain ⟨⟨l', t2⟩, h2, h⟩ := res_bind_ok h
      cases h
      cases heq
      rw [tokens_only _ h2]
      rfl
    · cases h; rfl

theorem items_only : ∀ (f : Nat) {ts r : List NTok} {l : List ClassItem}, pItems f ts = .ok (l, r) → ts = l.flatMap itemText ++ r
  | 0, _, _, _, h => by cases h
  | f + 1, ts, r, l, h => by
    unfold pItems at h
    split at h
    · obtain ⟨⟨l', t2⟩, h2, h⟩ := res_bind_ok h
      cases h
      rw [items_only _ h2]
      rfl
    · cases h
    · obtain ⟨⟨l', t2⟩, h2, h⟩ := res_bind_ok h
      cases h
      rw [items_only _ h2]
      rfl
    · cases h; rfl

theorem simpleRest_only {caret : Bool} {ts r : List NTok} {s : SimpleClass} (h : pSimpleRest caret ts = .ok (s, r)) :
    s.items ≠ [] ∧ s.caret = caret ∧ ts = s.items.flatMap itemText ++ .rsquare :: r := by
  obtain ⟨⟨l', t1⟩, h1, h⟩ := res_bind_ok h
  obtain ⟨t2, h2, h⟩ := res_bind_ok h
  split at h
  · cases h
  · rename_i hne
    cases h
    refine ⟨hne, rfl, ?_⟩
    rw [items_only _ h1]
    try dsimp only at h2
    rw [expect_only h2]

theorem simpleText_of {s : SimpleClass} {caret : Bool} (hc : s.caret = caret) (r : List NTok) :
    simpleText s ++ r = (if caret then .lsquareCaret else .lsquare) :: (s.items.flatMap itemText ++ .rsquare :: r) := by
  subst hc
  simp [simpleText]

theorem simple_only {ts r : List NTok} {s : SimpleClass} (h : pSimple ts = .ok (s, r)) : s.items ≠ [] ∧ ts = simpleText s ++ r := by
  unfold pSimple at h
  split at h
  · obtain ⟨h1, h2, h3⟩ := simpleRest_only h
    exact ⟨h1, by rw [simpleText_of h2, h3]; rfl⟩
  · obtain ⟨h1, h2, h3⟩ := simpleRest_only h
    exact ⟨h1, by rw [simpleText_of h2, h3]; rfl⟩
  · cases h

theorem inline_only {ts r : List NTok} {s : PStim} (h : pInline ts = .ok (s, r)) : StimFull s ∧ .langle :: ts = stimText s ++ r := by
  obtain ⟨⟨a, t1⟩, h1, h⟩ := res_bind_ok h
  obtain ⟨t2, h2, h⟩ := res_bind_ok h
  obtain ⟨⟨b, t3⟩, h3, h⟩ := res_bind_ok h
  obtain ⟨t4, h4, h⟩ := res_bind_ok h
  obtain ⟨⟨c, t5⟩, h5, h⟩ := res_bind_ok h
  obtain ⟨t6, h6, h⟩ := res_bind_ok h
  cases h
  try dsimp only at h2 h4 h6
  refine ⟨trivial, ?_⟩
  rw [str_only h1, expect_only h2, str_only h3, expect_only h4, str_only h5, expect_only h6]
  rfl

theorem classFrom_only {s : SimpleClass} {ts r : List NTok} {x : PStim} (hs : s.items ≠ []) (h : pClassFrom s ts = .ok (x, r)) :
    StimFull x ∧ simpleText s ++ ts = stimText x ++ r := by
  unfold pClassFrom at h
  split at h
  · obtain ⟨⟨t, t1⟩, h1, h⟩ := res_bind_ok h
    cases h
    obtain ⟨h2, h3⟩ := simple_only h1
    refine ⟨⟨hs, h2⟩, ?_⟩
    rw [h3]
    simp [stimText, classText]
  · cases h
    exact ⟨hs, rfl⟩

theorem stim_only {ts r : List NTok} {x : PStim} (h : pStim ts = .ok (x, r)) : StimFull x ∧ ts = stimText x ++ r := by
  unfold pStim at h
  split at h
  · cases h; exact ⟨trivial, rfl⟩
  · exact inline_only h
  · obtain ⟨⟨t, t1⟩, h1, h⟩ := res_bind_ok h
    cases h
    obtain ⟨h2, h3⟩ := simple_only h1
    exact ⟨h2, by rw [h3]; rfl⟩
  · obtain ⟨⟨s, t1⟩, h1, h⟩ := res_bind_ok h
    obtain ⟨h2, h3, h4⟩ := simpleRest_only h1
    have h5 := classFrom_only h2 h
    rw [simpleText_of h3] at h5
    rw [h4]
    exact h5
  · obtain ⟨⟨s, t1⟩, h1, h⟩ := res_bind_ok h
    obtain ⟨h2, h3, h4⟩ := simpleRest_only h1
    have h5 := classFrom_only h2 h
    rw [simpleText_of h3] at h5
    rw [h4]
    exact h5
  · cases h; exact ⟨trivial, rfl⟩

theorem altsMore_only : ∀ (f : Nat) {ts r : List NTok} {l : List PStim}, pAltsMore f ts = .ok (l, r) →
    (∀ s ∈ l, StimFull s) ∧ ts = l.flatMap (fun s => .pipe :: stimText s) ++ r
  | 0, _, _, _, h => by cases h
  | f + 1, ts, r, l, h => by
    unfold pAltsMore at h
    split at h
    · rename_i hh
      obtain ⟨⟨s, t1⟩, h1, h⟩ := res_bind_ok h
      obtain ⟨⟨l', t2⟩, h2, h⟩ := res_bind_ok h
      cases h
      obtain ⟨a1, a2⟩ := stim_only h1
      obtain ⟨b1, b2⟩ := altsMore_only f h2
      refine ⟨fun s hs => ?_, ?_⟩
      · rcases List.mem_cons.mp hs with rfl | hs
        · exact a1
        · exact b1 s hs
      · rw [head_tail hh, a2]
        try dsimp only at b2
        rw [b2]
        simp
    · cases h
      exact ⟨fun s hs => (by cases hs), rfl⟩

theorem alts_only {ts r : List NTok} {l : List PStim} (h : pAlts ts = .ok (l, r)) : AltsFull l ∧ ts = altsText l ++ r := by
  obtain ⟨⟨s, t1⟩, h1, h⟩ := res_bind_ok h
  obtain ⟨⟨l', t2⟩, h2, h⟩ := res_bind_ok h
  cases h
  obtain ⟨a1, a2⟩ := stim_only h1
  obtain ⟨b1, b2⟩ := altsMore_only _ h2
  refine ⟨⟨by simp, fun s hs => ?_⟩, ?_⟩
  · rcases List.mem_cons.mp hs with rfl | hs
    · exact a1
    · exact b1 s hs
  · rw [altsText_cons, a2]
    try dsimp only at b2
    rw [b2, List.append_assoc]

theorem seqMore_only : ∀ (f : Nat) {ts r : List NTok} {l : List (List PStim)}, pSeqMore f ts = .ok (l, r) →
    (∀ s ∈ l, AltsFull s) ∧ ts = l.flatMap (fun s => .semicolon :: altsText s) ++ r
  | 0, _, _, _, h => by cases h
  | f + 1, ts, r, l, h => by
    unfold pSeqMore at h
    split at h
    · rename_i hh
      obtain ⟨⟨s, t1⟩, h1, h⟩ := res_bind_ok h
      obtain ⟨⟨l', t2⟩, h2, h⟩ := res_bind_ok h
      cases h
      obtain ⟨a1, a2⟩ := alts_only h1
      obtain ⟨b1, b2⟩ := seqMore_only f h2
      refine ⟨fun s hs => ?_, ?_⟩
      · rcases List.mem_cons.mp hs with rfl | hs
        · exact a1
        · exact b1 s hs
      · rw [head_tail hh, a2]
        try dsimp only at b2
        rw [b2]
        simp
    · cases h
      exact ⟨fun s hs => (by cases hs), rfl⟩

theorem trans_only {ts r : List NTok} {t : PTrans} (h : pTrans ts = .ok (t, r)) : TransFull t ∧ ts = transText t ++ r := by
  obtain ⟨⟨s, t1⟩, h1, h⟩ := res_bind_ok h
  obtain ⟨⟨l, t2⟩, h2, h⟩ := res_bind_ok h
  obtain ⟨a1, a2⟩ := alts_only h1
  obtain ⟨b1, b2⟩ := seqMore_only _ h2
  try dsimp only at b2 h
  have full : ∀ x ∈ s :: l, AltsFull x := by
    intro x hx
    rcases List.mem_cons.mp hx with rfl | hx
    · exact a1
    · exact b1 x hx
  have htext : ∀ g : PGoal, transText ⟨s :: l, g⟩ ++ r = altsText s ++ (l.flatMap (fun s => .semicolon :: altsText s) ++ (goalText g ++ r)) := by
    intro g
    rw [transText_eq, List.map_cons, sepBy_cons, List.flatMap_map]
    simp
  split at h
  · obtain ⟨⟨g, t3⟩, h3, h⟩ := res_bind_ok h
    cases h
    obtain ⟨c1, c2⟩ := names_only h3
    exact ⟨⟨by simp, full, c1⟩, by rw [htext, a2, b2, c2]; rfl⟩
  · obtain ⟨⟨g, t3⟩, h3, h⟩ := res_bind_ok h
    cases h
    obtain ⟨c1, c2⟩ := names_only h3
    exact ⟨⟨by simp, full, c1⟩, by rw [htext, a2, b2, c2]; rfl⟩
  · cases h

theorem transitions_only : ∀ (f : Nat) {ts r : List NTok} {l : List PTrans}, pTransitions f ts = .ok (l, r) →
    (∀ t ∈ l, TransFull t) ∧ ts = l.flatMap transText ++ r
  | 0, _, _, _, h => by cases h
  | f + 1, ts, r, l, h => by
    unfold pTransitions at h
    split at h
    · cases h
      exact ⟨fun s hs => (by cases hs), rfl⟩
    · obtain ⟨⟨t, t1⟩, h1, h⟩ := res_bind_ok h
      obtain ⟨⟨l', t2⟩, h2, h⟩ := res_bind_ok h
      cases h
      obtain ⟨a1, a2⟩ := trans_only h1
      obtain ⟨b1, b2⟩ := transitions_only f h2
      refine ⟨fun s hs => ?_, ?_⟩
      · rcases List.mem_cons.mp hs with rfl | hs
        · exact a1
        · exact b1 s hs
      · rw [a2]
        try dsimp only at b2
        rw [b2]
        simp

theorem entry_only {ts r : List NTok} {e : Option Text} (h : pEntry ts = .ok (e, r)) :
    ts = entryText e ++ r := by
  unfold pEntry at h
  split at h
  · obtain ⟨⟨s, t1⟩, h1, h⟩ := res_bind_ok h
    cases h
    rw [str_only h1]
    rfl
  · cases h; rfl

theorem states_only : ∀ (f : Nat) {ts r : List NTok} {l : List PState}, pStates f ts = .ok (l, r) →
    (∀ s ∈ l, ∀ t ∈ s.trans, TransFull t) ∧ ts = l.flatMap stateText ++ r
  | 0, _, _, _, h => by cases h
  | f + 1, ts, r, l, h => by
    unfold pStates at h
    split at h
    · rename_i hh
      obtain ⟨⟨n, t1⟩, h1, h⟩ := res_bind_ok h
      obtain ⟨⟨e, t2⟩, h2, h⟩ := res_bind_ok h
      obtain ⟨⟨l', t3⟩, h3, h⟩ := res_bind_ok h
      obtain ⟨⟨ss, t4⟩, h4, h⟩ := res_bind_ok h
      cases h
      obtain ⟨a1, a2⟩ := transitions_only _ h3
      obtain ⟨b1, b2⟩ := states_only f h4
      have e2 := entry_only h2
      try dsimp only at e2 a2 b2
      refine ⟨fun s hs => ?_, ?_⟩
      · rcases List.mem_cons.mp hs with rfl | hs
        · exact a1
        · exact b1 s hs
      · rw [head_tail hh, str_only h1, e2, a2, b2]
        simp [stateText]
    · cases h
      exact ⟨fun s hs => (by cases hs), rfl⟩

theorem instances_only : ∀ (f : Nat) {ts r : List NTok} {l : List (Text × Text)}, pInstances f ts = .ok (l, r) →
    ts = l.flatMap (fun i => [.str i.1, .colon, .str i.2]) ++ r
  | 0, _, _, _, h => by cases h
  | f + 1, ts, r, l, h => by
    unfold pInstances at h
    split at h
    · cases ‹_ + 1 = 0›
    · rename_i heq
      obtain ⟨t1, h1, h⟩ := res_bind_ok h
      obtain ⟨⟨b, t2⟩, h2, h⟩ := res_bind_ok h
      obtain ⟨⟨l', t3⟩, h3, h⟩ := res_bind_ok h
      cases h
      cases heq
      rw [expect_only h1, str_only h2, instances_only _ h3]
      rfl
    · cases h; rfl

theorem chain_only {op : NTok} {mk : TagExpr → TagExpr → TagExpr} {p : NParser TagExpr} {v w : ELevel}
    (hp : ∀ {ts r e}, p ts = .ok (e, r) → ∃ t, ts = t ++ r ∧ ExprText v e t)
    (hmk : ∀ {a b t u}, ExprText w a t → ExprText v b u → ExprText w (mk a b) (t ++ op :: u)) :
    ∀ (f : Nat) {a e : TagExpr} {ta ts r : List NTok}, ExprText w a ta → pChain op mk p f a ts = .ok (e, r) →
      ∃ t, ta ++ ts = t ++ r ∧ ExprText w e t
  | 0, _, _, _, _, _, _, h => by cases h
  | f + 1, a, e, ta, ts, r, ha, h => by
    unfold pChain at h
    split at h
    · rename_i hh
      obtain ⟨⟨b, t1⟩, h1, h⟩ := res_bind_ok h
      obtain ⟨u, hu, hb⟩ := hp h1
      obtain ⟨t, ht, he⟩ := chain_only hp hmk f (hmk ha hb) h
      refine ⟨t, ?_, he⟩
      rw [← ht, head_tail hh, hu]
      simp
    · cases h
      exact ⟨ta, rfl, ha⟩

theorem expr_only : ∀ (f : Nat) (v : ELevel) {ts r : List NTok} {e : TagExpr}, pExpr f v ts = .ok (e, r) → ∃ t, ts = t ++ r ∧ ExprText v e t
  | 0, _, _, _, _, h => by cases h
  | f + 1, .cond, ts, r, e, h => by
    obtain ⟨⟨c, t1⟩, h1, h⟩ := res_bind_ok h
    obtain ⟨tc, htc, hc⟩ := expr_only f .or h1
    try dsimp only at h
    split at h
    · rename_i hh
      obtain ⟨⟨a, t2⟩, h2, h⟩ := res_bind_ok h
      obtain ⟨t3, h3, h⟩ := res_bind_ok h
      obtain ⟨⟨b, t4⟩, h4, h⟩ := res_bind_ok h
      cases h
      obtain ⟨ta, hta, ha⟩ := expr_only f .cond h2
      obtain ⟨tb, htb, hb⟩ := expr_only f .cond h4
      refine ⟨_, ?_, .cond hc ha hb⟩
      rw [htc, head_tail hh, hta]
      try dsimp only at h3
      rw [expect_only h3, htb]
      simp
    · cases h
      exact ⟨tc, htc, .cond1 hc⟩
  | f + 1, .or, ts, r, e, h => by
    obtain ⟨⟨a, t1⟩, h1, h⟩ := res_bind_ok h
    obtain ⟨ta, hta, ha⟩ := expr_only f .xor h1
    obtain ⟨t, ht, he⟩ := chain_only (fun h => expr_only f .xor h) ExprText.or _ (.or1 ha) h
    exact ⟨t, by rw [hta, ← ht], he⟩
  | f + 1, .xor, ts, r, e, h => by
    obtain ⟨⟨a, t1⟩, h1, h⟩ := res_bind_ok h
    obtain ⟨ta, hta, ha⟩ := expr_only f .and h1
    obtain ⟨t, ht, he⟩ := chain_only (fun h => expr_only f .and h) ExprText.xor _ (.xor1 ha) h
    exact ⟨t, by rw [hta, ← ht], he⟩
  | f + 1, .and, ts, r, e, h => by
    obtain ⟨⟨a, t1⟩, h1, h⟩ := res_bind_ok h
    obtain ⟨ta, hta, ha⟩ := expr_only f .unary h1
    obtain ⟨t, ht, he⟩ := chain_only (fun h => expr_only f .unary h) ExprText.and _ (.and1 ha) h
    exact ⟨t, by rw [hta, ← ht], he⟩
  | f + 1, .unary, ts, r, e, h => by
    unfold pExpr at h
    split at h
    · cases h
      exact ⟨_, rfl, .tag _⟩
    · obtain ⟨⟨a, t1⟩, h1, h⟩ := res_bind_ok h
      cases h
      obtain ⟨ta, hta, ha⟩ := expr_only f .unary h1
      exact ⟨_, by rw [hta]; rfl, .not ha⟩
    · obtain ⟨⟨a, t1⟩, h1, h⟩ := res_bind_ok h
      obtain ⟨t2, h2, h⟩ := res_bind_ok h
      cases h
      obtain ⟨ta, hta, ha⟩ := expr_only f .cond h1
      refine ⟨_, ?_, .paren ha⟩
      rw [hta]
      try dsimp only at h2
      rw [expect_only h2]
      simp
    · cases h

theorem attrRest_only {early : Bool} {ts r : List NTok} {a : PAttr} (h : pAttrRest early ts = .ok (a, r)) :
    ∃ t, (if early then [.early, .attr] else [.attr]) ++ ts = t ++ r ∧ AttrText a t := by
  obtain ⟨⟨s, t1⟩, h1, h⟩ := res_bind_ok h
  try dsimp only at h
  split at h
  · rename_i hh
    obtain ⟨⟨e, t2⟩, h2, h⟩ := res_bind_ok h
    cases h
    obtain ⟨t, ht, he⟩ := expr_only _ .cond h2
    refine ⟨_, ?_, .expr early s he⟩
    rw [str_only h1, head_tail hh, ht]
    simp
  · obtain ⟨⟨l, t2⟩, h2, h⟩ := res_bind_ok h
    cases h
    refine ⟨_, ?_, .names early (l := s :: l) (by simp)⟩
    rw [str_only h1, strsMore_only _ h2, nameList_cons]
    simp

theorem attr_only {ts r : List NTok} {a : PAttr} (h : pAttr ts = some (.ok (a, r))) : ∃ t, ts = t ++ r ∧ AttrText a t := by
  unfold pAttr at h
  split at h
  · injection h with h
    exact attrRest_only h
  · injection h with h
    obtain ⟨t1, h1, h⟩ := res_bind_ok h
    rw [expect_only h1]
    exact attrRest_only h
  · injection h with h
    obtain ⟨⟨s, t1⟩, h1, h⟩ := res_bind_ok h
    cases h
    exact ⟨_, by rw [str_only h1]; rfl, .default s⟩
  · injection h with h
    obtain ⟨⟨s, t1⟩, h1, h⟩ := res_bind_ok h
    cases h
    exact ⟨_, by rw [str_only h1]; rfl, .type s⟩
  · cases h

theorem attrs_only : ∀ (f : Nat) {ts r : List NTok} {l : List PAttr}, pAttrs f ts = .ok (l, r) → ∃ t, ts = t ++ r ∧ AttrsText l t
  | 0, _, _, _, h => by cases h
  | f + 1, ts, r, l, h => by
    unfold pAttrs at h
    split at h
    · rename_i ra hra
      obtain ⟨⟨a, t1⟩, h1, h⟩ := res_bind_ok h
      obtain ⟨⟨l', t2⟩, h2, h⟩ := res_bind_ok h
      cases h
      rw [h1] at hra
      obtain ⟨ta, hta, ha⟩ := attr_only hra
      obtain ⟨tl, htl, hl⟩ := attrs_only f h2
      refine ⟨_, ?_, .cons ha hl⟩
      rw [hta]
      try dsimp only at htl
      rw [htl, List.append_assoc]
    · cases h
      exact ⟨[], rfl, .nil⟩

theorem decl_only {ts r : List NTok} {d : PDecl} (h : pDecl ts = .ok (d, r)) : ∃ t, ts = t ++ r ∧ DeclText d t := by
  unfold pDecl at h
  split at h
  · obtain ⟨⟨s, t1⟩, h1, h⟩ := res_bind_ok h
    obtain ⟨t2, h2, h⟩ := res_bind_ok h
    obtain ⟨⟨is, t3⟩, h3, h⟩ := res_bind_ok h
    obtain ⟨⟨ss, t4⟩, h4, h⟩ := res_bind_ok h
    obtain ⟨t5, h5, h⟩ := res_bind_ok h
    cases h
    obtain ⟨a1, a2⟩ := states_only _ h4
    try dsimp only at h2 h3 h5 a2
    refine ⟨_, ?_, .block s is a1⟩
    rw [str_only h1, expect_only h2, instances_only _ h3, a2, expect_only h5]
    simp
  · obtain ⟨⟨s, t1⟩, h1, h⟩ := res_bind_ok h
    obtain ⟨⟨l, t2⟩, h2, h⟩ := res_bind_ok h
    cases h
    refine ⟨_, ?_, .tokens (l := s :: l) (by simp)⟩
    rw [str_only h1, tokens_only _ h2]
    rfl
  · obtain ⟨⟨s, t1⟩, h1, h⟩ := res_bind_ok h
    obtain ⟨t2, h2, h⟩ := res_bind_ok h
    obtain ⟨⟨l, t3⟩, h3, h⟩ := res_bind_ok h
    cases h
    obtain ⟨a1, a2⟩ := alts_only h3
    try dsimp only at h2
    refine ⟨_, ?_, .abbreviation s a1⟩
    rw [str_only h1, expect_only h2, a2]
    rfl
  · obtain ⟨⟨s, t1⟩, h1, h⟩ := res_bind_ok h
    obtain ⟨t2, h2, h⟩ := res_bind_ok h
    obtain ⟨⟨l, t3⟩, h3, h⟩ := res_bind_ok h
    obtain ⟨t4, h4, h⟩ := res_bind_ok h
    cases h
    obtain ⟨t, ht, ha⟩ := attrs_only _ h3
    try dsimp only at h2 h4
    refine ⟨_, ?_, .group s ha⟩
    rw [str_only h1, expect_only h2, ht, expect_only h4]
    simp
  · obtain ⟨⟨s, t1⟩, h1, h⟩ := res_bind_ok h
    obtain ⟨t2, h2, h⟩ := res_bind_ok h
    obtain ⟨⟨e, t3⟩, h3, h⟩ := res_bind_ok h
    cases h
    obtain ⟨t, ht, ha⟩ := expr_only _ .cond h3
    try dsimp only at h2
    refine ⟨_, ?_, .tag s ha⟩
    rw [str_only h1, expect_only h2, ht]
    rfl
  · obtain ⟨⟨s, t1⟩, h1, h⟩ := res_bind_ok h
    cases h
    exact ⟨_, by rw [str_only h1]; rfl, .prefix s⟩
  · obtain ⟨⟨a, t1⟩, h1, h⟩ := res_bind_ok h
    obtain ⟨⟨b, t2⟩, h2, h⟩ := res_bind_ok h
    cases h
    exact ⟨_, by rw [str_only h1, str_only h2]; rfl, .entrystruct a b⟩
  · split at h
    · rename_i ra hra
      obtain ⟨⟨a, t1⟩, h1, h⟩ := res_bind_ok h
      cases h
      rw [h1] at hra
      obtain ⟨ta, hta, ha⟩ := attr_only hra
      exact ⟨ta, hta, .attr ha⟩
    · cases h

theorem file_only : ∀ (f : Nat) {ts : List NTok} {l : List PDecl}, pDecls f ts = .ok l → FileText l ts
  | f, [], l, h => by
    have : pDecls f [] = .ok [] := by cases f <;> rfl
    rw [this] at h
    cases h
    exact .nil
  | 0, _ :: _, _, h => by cases h
  | f + 1, k :: ts, l, h => by
    obtain ⟨⟨d, t1⟩, h1, h⟩ := res_bind_ok h
    obtain ⟨l', h2, h⟩ := res_bind_ok h
    cases h
    obtain ⟨t, ht, hd⟩ := decl_only h1
    rw [ht]
    exact .cons hd (file_only f h2)

end Mairix
