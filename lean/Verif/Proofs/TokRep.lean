import Verif.Proofs.TokTable

/-! A token table as a map from words to message lists. -/

namespace Mairix

variable {α β : Type}

/-- `t` represents the finite map `f`, payloads being related by `R`. -/
structure Rep (hash : Text → Nat) (R : α → β → Prop) (t : Table α) (f : Text → Option β) : Prop where
  ok : TabOk hash t
  sound : ∀ e ∈ ents t.slots, ∃ b, f e.text = some b ∧ R e.data b
  complete : ∀ w b, f w = some b → ∃ e ∈ ents t.slots, e.text = w

theorem Rep.new (hash : Text → Nat) (R : α → β → Prop) :
    Rep hash R (newTable : Table α) (fun _ => none) :=
  ⟨TabOk.new hash, by simp [newTable, ents], by simp⟩

/-- Finding or creating an entry and updating it. -/
theorem Rep.add {hash : Text → Nat} {R : α → β → Prop} {t : Table α} {f : Text → Option β}
    (h : Rep hash R t f) {fresh : α} {text : Text} {upd : α → Res α} {a : Option β → β}
    (hnew : f text = none → ∃ d, upd fresh = .ok d ∧ R d (a none))
    (hold : ∀ d b, f text = some b → R d b → ∃ d', upd d = .ok d' ∧ R d' (a (some b))) :
    ∃ t1 i t', findOrInsert hash fresh text t = .ok (t1, i) ∧ updateAt upd t1 i = .ok t' ∧
      Rep hash R t' (fun w => if w = text then some (a (f text)) else f w) := by
  obtain ⟨t1, i, e, h1, hok1, hi, het, hcase⟩ := findOrInsert_spec (fresh := fresh) (text := text) h.ok
  -- the update of the payload succeeds
  obtain ⟨d, hd, hR⟩ : ∃ d, upd e.data = .ok d ∧ R d (a (f text)) := by
    rcases hcase with ⟨hmem, _⟩ | ⟨habs, hdat, _⟩
    · obtain ⟨b, hb, hRb⟩ := h.sound e hmem
      rw [het] at hb
      obtain ⟨d', h2, h3⟩ := hold _ b hb hRb
      exact ⟨d', h2, by rw [hb]; exact h3⟩
    · have hnone : f text = none := by
        cases hf : f text with
        | none => rfl
        | some b =>
          obtain ⟨e', he', het'⟩ := h.complete text b hf
          exact absurd het' (habs e' he')
      obtain ⟨d, h2, h3⟩ := hnew hnone
      exact ⟨d, by rw [hdat]; exact h2, by rw [hnone]; exact h3⟩
  obtain ⟨t', h2, hok2, rest, hp1, hp2⟩ := updateAt_spec hok1 hi hd
  have hnd : ((e :: rest).map Entry.text).Nodup :=
    ((hp1.map Entry.text).nodup_iff).mp hok1.nodup
  rw [List.map_cons, List.nodup_cons] at hnd
  have hrest_ne : ∀ e' ∈ rest, e'.text ≠ text := by
    intro e' he' hh
    exact hnd.1 (List.mem_map.mpr ⟨e', he', by rw [hh, het]⟩)
  -- the other entries are those of the old table
  have hrest : ∀ e', e'.text ≠ text → (e' ∈ rest ↔ e' ∈ ents t.slots) := by
    intro e' hne
    have hne' : e' ≠ e := fun hh => hne (by rw [hh, het])
    have h3 : e' ∈ rest ↔ e' ∈ ents t1.slots := by
      rw [hp1.mem_iff]; simp [hne']
    rw [h3]
    rcases hcase with ⟨_, hp⟩ | ⟨_, _, hp⟩
    · exact hp.mem_iff
    · rw [hp.mem_iff]; simp [hne']
  refine ⟨t1, i, t', h1, h2, hok2, ?_, ?_⟩
  · intro e' he'
    rcases List.mem_cons.mp (hp2.mem_iff.mp he') with hh | hh
    · subst hh
      exact ⟨_, by simp [het], hR⟩
    · have hne := hrest_ne e' hh
      rw [if_neg hne]
      exact h.sound e' ((hrest e' hne).mp hh)
  · intro w b hw
    split at hw
    · next hwt =>
      exact ⟨_, hp2.mem_iff.mpr (List.mem_cons_self), by rw [hwt]; exact het⟩
    · next hwt =>
      obtain ⟨e', he', het'⟩ := h.complete w b hw
      have hne : e'.text ≠ text := by rw [het']; exact hwt
      exact ⟨e', hp2.mem_iff.mpr (List.mem_cons_of_mem _ ((hrest e' hne).mpr he')), het'⟩

/-- A table loaded from a list of tokens that represents `f`. -/
theorem Rep.import {hash : Text → Nat} {R : α → β → Prop} {f : Text → Option β} {check : Bool}
    {ok : α → Bool} {toks : List (Text × α)} (hnd : (toks.map Prod.fst).Nodup)
    (hok : ∀ p ∈ toks, ok p.2 = true)
    (hs : ∀ p ∈ toks, ∃ b, f p.1 = some b ∧ R p.2 b)
    (hc : ∀ w b, f w = some b → ∃ p ∈ toks, p.1 = w) :
    ∃ t, importTable hash check ok toks = .ok t ∧ Rep hash R t f := by
  obtain ⟨t, h1, h2, h3⟩ := importTable_spec (hash := hash) (check := check) toks hok hnd
  refine ⟨t, h1, h2, ?_, ?_⟩
  · intro e he
    obtain ⟨p, hp, rfl⟩ := List.mem_map.mp (h3.mem_iff.mp he)
    exact hs p hp
  · intro w b hw
    obtain ⟨p, hp, hpw⟩ := hc w b hw
    exact ⟨_, h3.mem_iff.mpr (List.mem_map.mpr ⟨p, hp, rfl⟩), hpw⟩

/-- A purge maps every payload and drops the dead ones. -/
theorem Rep.recode {hash : Text → Nat} {R : α → β → Prop} {t : Table α} {f : Text → Option β}
    (h : Rep hash R t f) {g : α → Res α} {dead : α → Bool} {a : β → Option β}
    (hg : ∀ d b, (∃ w, f w = some b) → R d b → ∃ d', g d = .ok d' ∧
      (match a b with | none => dead d' = true | some b' => dead d' = false ∧ R d' b')) :
    ∃ fuel0, ∀ fuel ≥ fuel0, ∃ t', recodeTable fuel g dead t = .ok t' ∧
      Rep hash R t' (fun w => (f w).bind a) := by
  -- a function giving the recoded payload
  let g' : α → α := fun d => match g d with | .ok d' => d' | .error _ => d
  have hg' : ∀ e ∈ ents t.slots, g e.data = .ok (g' e.data) := by
    intro e he
    obtain ⟨b, hb, hR⟩ := h.sound e he
    obtain ⟨d', hd', _⟩ := hg e.data b ⟨_, hb⟩ hR
    simp only [g', hd']
  obtain ⟨fuel0, hfuel⟩ := recodeTable_spec (dead := dead) h.ok hg'
  refine ⟨fuel0, fun fuel hf => ?_⟩
  obtain ⟨t', h1, h2, h3⟩ := hfuel fuel hf
  refine ⟨t', h1, h2, ?_, ?_⟩
  · intro e he
    obtain ⟨he1, he2⟩ := List.mem_filter.mp (h3.mem_iff.mp he)
    obtain ⟨e0, he0, rfl⟩ := List.mem_map.mp he1
    obtain ⟨b, hb, hR⟩ := h.sound e0 he0
    obtain ⟨d', hd', hcase⟩ := hg e0.data b ⟨_, hb⟩ hR
    have hdd : g' e0.data = d' := by simp only [g', hd']
    simp only [hb, Option.bind_some]
    cases hab : a b with
    | none =>
      rw [hab] at hcase
      simp only [hdd] at he2
      simp [hcase] at he2
    | some b' =>
      rw [hab] at hcase
      exact ⟨b', rfl, by rw [hdd]; exact hcase.2⟩
  · intro w b' hw
    cases hfw : f w with
    | none => rw [hfw] at hw; simp at hw
    | some b =>
      rw [hfw, Option.bind_some] at hw
      obtain ⟨e, he, hew⟩ := h.complete w b hfw
      obtain ⟨b2, hb2, hR⟩ := h.sound e he
      rw [hew, hfw] at hb2
      cases hb2
      obtain ⟨d', hd', hcase⟩ := hg e.data b ⟨_, hfw⟩ hR
      have hdd : g' e.data = d' := by simp only [g', hd']
      rw [hw] at hcase
      refine ⟨{ e with data := g' e.data }, h3.mem_iff.mpr (List.mem_filter.mpr ⟨List.mem_map.mpr ⟨e, he, rfl⟩, ?_⟩), hew⟩
      simp only [hdd, hcase.1, Bool.not_false]

/-! ## Message lists under renumbering -/

theorem foldl_addAbs_fresh : ∀ (is l : List Nat), (l ++ is).Pairwise (· < ·) →
    is.foldl addAbs l = l ++ is := by
  intro is
  induction is with
  | nil => simp
  | cons i is ih =>
    intro l h
    have hni : i ∉ l := by
      intro hm
      rw [List.pairwise_append] at h
      have := h.2.2 i hm i (by simp)
      omega
    rw [List.foldl_cons, addAbs, if_neg hni, ih]
    · simp
    · simpa using h

theorem buildNewIdx_get : ∀ (keep : List Bool) (j i : Nat),
    (buildNewIdx keep j)[i]? = (keep[i]?).map (fun b => if b then some (j + (keep.take i).count true) else none) := by
  intro keep
  induction keep with
  | nil => intro j i; simp [buildNewIdx]
  | cons k ks ih =>
    intro j i
    cases i with
    | zero => cases k <;> simp [buildNewIdx]
    | succ i =>
      cases k
      · simp [buildNewIdx, ih]
      · simp [buildNewIdx, ih]
        cases ks[i]? with
        | none => rfl
        | some b => simp; cases b <;> simp; omega

/-- The new number of message `i`: the number of kept messages before it. -/
theorem newIdxOf_eq (keep : List Bool) (i : Nat) :
    newIdxOf keep i = if keep[i]? = some true then some ((keep.take i).count true) else none := by
  unfold newIdxOf
  rw [buildNewIdx_get]
  cases keep[i]? with
  | none => simp
  | some b => cases b <;> simp

theorem count_take_mono (keep : List Bool) {i j : Nat} (h : i < j) (hi : keep[i]? = some true) :
    (keep.take i).count true < (keep.take j).count true := by
  obtain ⟨hlt, hget⟩ := List.getElem?_eq_some_iff.mp hi
  have h1 : (keep.take (i + 1)).count true = (keep.take i).count true + 1 := by
    rw [List.take_succ_eq_append_getElem hlt, List.count_append, hget]
    simp
  have h2 : (keep.take (i + 1)).Sublist (keep.take j) := by
    have : keep.take (i + 1) = (keep.take j).take (i + 1) := by
      rw [List.take_take, Nat.min_eq_left (by omega)]
    rw [this]
    exact List.take_sublist _ _
  have := h2.count_le true
  omega

theorem filterMap_newIdx_increasing (keep : List Bool) (l : List Nat) (h : l.Pairwise (· < ·)) :
    (l.filterMap (newIdxOf keep)).Pairwise (· < ·) := by
  rw [List.pairwise_filterMap]
  refine h.imp ?_
  intro a b hab x hx y hy
  rw [newIdxOf_eq] at hx hy
  split at hx
  · next ha =>
    split at hy
    · cases hx; cases hy; exact count_take_mono keep hab ha
    · cases hy
  · cases hx

theorem recodeLoop_eq (nOld : Nat) (newIdx : Nat → Option Nat) : ∀ (l : List Nat) (m : Matches),
    (∀ x ∈ l, x < nOld) → recodeLoop nOld newIdx l m = addIndices m (l.filterMap newIdx) := by
  intro l
  induction l with
  | nil => intro m _; rfl
  | cons i is ih =>
    intro m h
    simp only [recodeLoop, if_pos (h i (by simp))]
    cases hi : newIdx i with
    | none =>
      rw [List.filterMap_cons_none hi]
      exact ih m (fun x hx => h x (by simp [hx]))
    | some j =>
      rw [List.filterMap_cons_some hi]
      simp only [addIndices]
      congr 1
      funext m'
      exact ih m' (fun x hx => h x (by simp [hx]))

/-- Limit on message numbers below which the encoding is faithful (see C01). -/
def maxMsgs : Nat := 0x3F000000

theorem recodeEncoding_valid {keep : List Bool} {m : Matches} {l : List Nat} (hm : Valid m l)
    (hl : ∀ x ∈ l, x < keep.length) (hk : keep.length ≤ maxMsgs) :
    ∃ m', recodeEncoding keep.length (newIdxOf keep) m = .ok m' ∧ Valid m' (l.filterMap (newIdxOf keep)) := by
  have hinc := filterMap_newIdx_increasing keep l hm.increasing
  have hlt : ∀ y ∈ l.filterMap (newIdxOf keep), y < maxMsgs := by
    intro y hy
    obtain ⟨x, hx, hxy⟩ := List.mem_filterMap.mp hy
    rw [newIdxOf_eq] at hxy
    split at hxy
    · cases hxy
      have h1 := List.count_le_length (a := true) (l := keep.take x)
      have h2 := hl x hx
      simp at h1
      omega
    · cases hxy
  have h0 : Valid { bytes := [], max := m.max, highest := 0 } [] :=
    { fits := by simp, maxOk := hm.maxOk, empty := by simp, highest := by simp, increasing := by simp
      decode := by simp, consumed := by simp }
  obtain ⟨m', h1, h2⟩ := addIndices_valid (l.filterMap (newIdxOf keep)) h0
    (hinc.imp (fun h => Nat.le_of_lt h)) (by simp)
    (fun i hi => Or.inl (by simpa [maxMsgs] using hlt i hi))
  refine ⟨m', ?_, ?_⟩
  · unfold recodeEncoding
    rw [valid_readAll hm, recodeLoop_eq _ _ _ _ hl]
    exact h1
  · rw [foldl_addAbs_fresh _ _ (by simpa using hinc)] at h2
    simpa using h2

end Mairix
