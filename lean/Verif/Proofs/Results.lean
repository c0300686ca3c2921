import Verif.Proofs.Query

/-! # Arguments, whole queries, threads and the list of results -/

namespace Mairix
open Spec

/-- What the code needs to handle an argument right: see `Searchable` for words; limits of sizes must
fit an `int`. -/
def Cond.Searchable (db : ReadDb) (info : List Info) : Cond → Prop
  | .words fields e => (∀ alt ∈ e, ∀ t ∈ alt, Mairix.Searchable fields t) ∧
      (Field.path ∈ fields → PathsKnown db info ∧ ∀ f ∈ fields, f = .path)
  | .sizes a b => (∀ n, a = some n → n < 2 ^ 31) ∧ (∀ n, b = some n → n < 2 ^ 31)
  | _ => True

/-- The date scanner delivers the ranges `dateRange`. -/
def ScansDates (scan : Text → Option (Option Int × Option Int)) (dateRange : Text → Option Int → Option Int → Prop) :
    Prop := ∀ s a b, dateRange s a b → scan s = some (a, b)

theorem limits_map {info : List Info} {msgs : List DbMsg} (hlen : msgs.length = info.length) (a b : Option Int)
    (val : DbMsg → Int) (val' : Info → Int)
    (hval : ∀ (i : Nat) m x, msgs[i]? = some m → info[i]? = some x → val m = val' x)
    (f : DbMsg → Bool)
    (hf : ∀ m ∈ msgs, f m = true ↔ ((∀ s, (orderLimits (a, b)).1 = some s → s < val m) ∧
      (∀ e, (orderLimits (a, b)).2 = some e → val m < e))) :
    IsVec info.length (msgs.map f) (fun i => ∃ x, info[i]? = some x ∧ StrictlyWithin a b (val' x)) := by
  have v := IsVec.map msgs f
  rw [hlen] at v
  refine v.congr ?_
  intro i hi
  have h1 : msgs[i]? = some (msgs[i]'(by omega)) := by simp [hlen, hi]
  have h2 : info[i]? = some info[i] := by simp [hi]
  rw [h1, h2]
  simp only [Option.some.injEq, exists_eq_left']
  rw [hf _ (List.getElem_mem _), orderLimits_spec, hval i _ _ h1 h2]

theorem findDate_ok {db : ReadDb} {info : List Info} (hs : Shows db info) {scan s a b}
    (hscan : scan s = some (a, b)) :
    ∃ h', findDate scan db s = .ok h' ∧
      IsVec info.length h' (fun i => ∃ x, info[i]? = some x ∧ StrictlyWithin a b x.date) := by
  refine ⟨_, ?_, limits_map hs.len a b (fun m => m.date) (fun x => x.date)
    (fun i m x h1 h2 => by rw [(hs.each i m x h1 h2).date]) (dateWithin (orderLimits (a, b))) ?_⟩
  · simp only [findDate, hscan]
  · intro m _
    unfold dateWithin
    rcases orderLimits (a, b) with ⟨_ | s, _ | e⟩ <;> simp

theorem toUnsigned_ofNat {n : Nat} (h : n < 2 ^ 31) : toUnsigned (n : Int) = n := by
  simp only [toUnsigned]; omega

theorem findSize_ok {db : ReadDb} {info : List Info} (hs : Shows db info) {s a b}
    (h : SizeRangeWritten s a b) (ha : ∀ n, a = some n → n < 2 ^ 31) (hb : ∀ n, b = some n → n < 2 ^ 31) :
    ∃ h', findSize db s = .ok h' ∧ IsVec info.length h' (fun i => ∃ x, info[i]? = some x ∧
      StrictlyWithin (a.map Int.ofNat) (b.map Int.ofNat) x.size) := by
  refine ⟨_, ?_, limits_map hs.len (a.map Int.ofNat) (b.map Int.ofNat) (fun m => m.size) (fun x => x.size)
    (fun i m x h1 h2 => by rw [(hs.each i m x h1 h2).size])
    (sizeWithin (orderLimits (a.map Int.ofNat, b.map Int.ofNat))) ?_⟩
  · simp only [findSize, parseSizeRange_written h ha hb, bind, Except.bind]
  · intro m _
    unfold sizeWithin
    have hlim : (∀ s, (orderLimits (a.map Int.ofNat, b.map Int.ofNat)).1 = some s → ∃ n : Nat, s = n ∧ n < 2 ^ 31) ∧
        (∀ e, (orderLimits (a.map Int.ofNat, b.map Int.ofNat)).2 = some e → ∃ n : Nat, e = n ∧ n < 2 ^ 31) := by
      cases a with
      | none =>
        cases b with
        | none => simp [orderLimits]
        | some b => simp only [orderLimits, Option.map]; refine ⟨by simp, ?_⟩; rintro e he; cases he; exact ⟨b, rfl, hb b rfl⟩
      | some a =>
        cases b with
        | none => simp only [orderLimits, Option.map]; refine ⟨?_, by simp⟩; rintro e he; cases he; exact ⟨a, rfl, ha a rfl⟩
        | some b =>
          have ha := ha a rfl; have hb := hb b rfl
          simp only [orderLimits, Option.map]
          split <;> refine ⟨?_, ?_⟩ <;> rintro e he <;> cases he <;>
            first | exact ⟨a, rfl, ha⟩ | exact ⟨b, rfl, hb⟩
    rcases hl : orderLimits (a.map Int.ofNat, b.map Int.ofNat) with ⟨_ | s, _ | e⟩ <;> rw [hl] at hlim
    · simp
    · obtain ⟨n, rfl, hn⟩ := hlim.2 e rfl
      simp [toUnsigned_ofNat hn]
    · obtain ⟨n, rfl, hn⟩ := hlim.1 s rfl
      simp [toUnsigned_ofNat hn]
    · obtain ⟨n, rfl, hn⟩ := hlim.1 s rfl
      obtain ⟨n', rfl, hn'⟩ := hlim.2 e rfl
      simp [toUnsigned_ofNat hn, toUnsigned_ofNat hn']

theorem msgid_ok {db : ReadDb} {info : List Info} (hs : Shows db info) (id : Text) :
    ∃ h', matchString2 (lower id) db.msgIds (List.replicate db.msgs.length false) = .ok h' ∧
      IsVec info.length h' (fun i => ∃ x, info[i]? = some x ∧ lower id ∈ x.ids) := by
  have hz : IsVec info.length (List.replicate db.msgs.length false) (fun _ => False) := by
    rw [hs.len]; exact isVec_zeros _
  obtain ⟨g1, g2, g3⟩ := hs.ids
  obtain ⟨h', e, v⟩ := matchString2_ok (lower id) db.msgIds hz (by
    intro w e0 e1 hm
    refine ⟨g1 _ hm, ?_⟩
    intro i hi
    cases w with
    | none => exact absurd rfl (g1 _ hm)
    | some w =>
      obtain ⟨x, hx, _⟩ := g2 w e0 e1 hm i hi
      exact (List.getElem?_eq_some_iff.1 hx).1)
  refine ⟨h', e, v.congr ?_⟩
  intro i _
  constructor
  · rintro (h | ⟨e0, e1, h1, h2⟩)
    · exact h.elim
    · exact g2 _ e0 e1 h1 i h2
  · rintro ⟨x, h1, h2⟩
    obtain ⟨e0, e1, h3, h4⟩ := g3 i x _ h1 h2
    exact .inr ⟨e0, e1, h3, h4⟩

theorem single_vec {n : Nat} {h0 : List Bool} {P} (v : IsVec n h0 P) :
    IsVec n (orCombine (List.replicate n false) (andCombine false (List.replicate n true) h0)) P := by
  refine ((isVec_zeros n).orCombine ((isVec_ones n).andCombine false v)).congr ?_
  intro i _; simp

theorem argHits_ok {db : ReadDb} {info : List Info} (hs : Shows db info) {scan dateRange}
    (hscan : ScansDates scan dateRange) {c : Cond} {s : Text} (hw : c.WrittenAs dateRange s)
    (hc : Cond.Searchable db info c) :
    ∃ h', argHits scan db s = .ok h' ∧ IsVec info.length h' (fun i => ∃ x, info[i]? = some x ∧ c.Holds x) := by
  have keys : ∀ (pre : String) (b : UInt8) (k : Keys) (s : Text), bs pre = [b, 0x3a] → b ≠ 0x3a →
      keyLetter {} b = k → parseKeys (bs pre ++ s) = .ok (k, s) := by
    intro pre b k s h1 h2 h3
    rw [h1]
    have h4 : ([b, 0x3a] ++ s).findIdx? (· == 0x3a) = some 1 := by
      simp [List.findIdx?_cons, h2]
    have h5 : ([b, 0x3a] ++ s).take 1 = [b] := by simp
    have h6 : ([b, 0x3a] ++ s).drop 2 = s := by simp
    simp only [parseKeys, h4, h5, h6, List.foldl_cons, List.foldl_nil, h3]
    simp
  cases hw with
  | @words fields e s ha =>
    obtain ⟨k, rest, e1, hk, hwr, f1, f2, f3, f4⟩ := parseKeys_word ha
    have hones : IsVec info.length (List.replicate db.msgs.length true) (fun _ => True) := by
      rw [hs.len]; exact isVec_ones _
    have hz : IsVec info.length (List.replicate db.msgs.length false) (fun _ => False) := by
      rw [hs.len]; exact isVec_zeros _
    obtain ⟨h1, h2, e2, v⟩ := wordLoop_ok hs hk hc.2 hwr hc.1 (rest.length + 1) (by omega) hones hz
    refine ⟨orCombine h2 h1, ?_, v.congr ?_⟩
    · simp only [argHits, e1, f1, f2, f3, f4, bind, Except.bind, e2]
      simp
    · intro i hi
      have hx : info[i]? = some info[i] := by simp [hi]
      have hne : e ≠ [] := by cases hwr <;> simp
      cases e with
      | nil => exact absurd rfl hne
      | cons a e =>
        simp only [TermAt, hx, Option.some.injEq, exists_eq_left', Cond.Holds, Expr.Holds, false_or, true_and,
          List.headD_cons, List.tail_cons, List.mem_cons]
        simp
  | msgid id =>
    obtain ⟨h', e, v⟩ := msgid_ok hs id
    rw [hs.len] at e
    refine ⟨_, ?_, (single_vec v)⟩
    simp only [argHits, keys "m:" 0x6d { msgid := true } id (by decide) (by decide) (by decide), bind, Except.bind, e,
      hs.len]
    simp
  | @dates s a b hd =>
    obtain ⟨h', e, v⟩ := findDate_ok hs (hscan s a b hd)
    refine ⟨_, ?_, (single_vec v)⟩
    simp only [argHits, keys "d:" 0x64 { date := true } s (by decide) (by decide) (by decide), bind, Except.bind, e,
      hs.len]
    simp
  | @sizes s a b hd =>
    obtain ⟨h', e, v⟩ := findSize_ok hs hd hc.1 hc.2
    refine ⟨_, ?_, (single_vec v)⟩
    simp only [argHits, keys "z:" 0x7a { size := true } s (by decide) (by decide) (by decide), bind, Except.bind, e,
      hs.len]
    simp
  | @flags l s hd =>
    refine ⟨_, ?_, (single_vec (findFlags_ok hs hd))⟩
    simp only [argHits, keys "F:" 0x46 { flags := true } s (by decide) (by decide) (by decide), bind, Except.bind,
      hs.len]
    simp

/-- All arguments. -/
theorem allHits_ok {db : ReadDb} {info : List Info} (hs : Shows db info) {scan dateRange}
    (hscan : ScansDates scan dateRange) {cs : List Cond} {args : List Text} (hw : QueryWrittenAs dateRange cs args) :
    (∀ c ∈ cs, Cond.Searchable db info c) → ∀ {hit3 P}, IsVec info.length hit3 P →
    ∃ h', allHits scan db args hit3 = .ok h' ∧
      IsVec info.length h' (fun i => P i ∧ ∃ x, info[i]? = some x ∧ ∀ c ∈ cs, c.Holds x) := by
  induction hw with
  | nil =>
    intro _ hit3 P v
    refine ⟨hit3, rfl, v.congr ?_⟩
    intro i hi
    have hx : info[i]? = some info[i] := by simp [hi]
    simp [hx]
  | @cons c s cs ss h _ ih =>
    intro hc hit3 P v
    obtain ⟨h2, e2, v2⟩ := argHits_ok hs hscan h (hc c (by simp))
    obtain ⟨h', e', v'⟩ := ih (fun c hcc => hc c (by simp [hcc])) (v.and v2)
    refine ⟨h', by simp only [allHits, e2, bind, Except.bind]; exact e', v'.congr ?_⟩
    intro i hi
    have hx : info[i]? = some info[i] := by simp [hi]
    simp [hx, and_assoc]

/-! ## Threads -/

theorem markThreads_ok : ∀ (msgs : List DbMsg) (hits tids : List Bool) {N Q}, IsVec N tids Q →
    (∀ m ∈ msgs, m.tid < N) →
    ∃ t', markThreads msgs hits tids = .ok t' ∧
      IsVec N t' (fun t => Q t ∨ ∃ (i : Nat) (m : DbMsg), msgs[i]? = some m ∧ hits[i]? = some true ∧ m.tid = t)
  | [], hits, tids, N, Q, v, _ => ⟨tids, by cases hits <;> rfl, v.congr (by simp)⟩
  | m :: ms, [], tids, N, Q, v, _ => ⟨tids, rfl, v.congr (by simp)⟩
  | m :: ms, h :: hs, tids, N, Q, v, hm => by
    have hlt := hm m (by simp)
    have shift : ∀ t, (∃ (i : Nat) (x : DbMsg), (m :: ms)[i]? = some x ∧ (h :: hs)[i]? = some true ∧ x.tid = t) ↔
        ((h = true ∧ m.tid = t) ∨ ∃ (i : Nat) (x : DbMsg), ms[i]? = some x ∧ hs[i]? = some true ∧ x.tid = t) := by
      intro t
      constructor
      · rintro ⟨i, x, h1, h2, h3⟩
        cases i with
        | zero => simp at h1 h2; subst h1; exact .inl ⟨h2, h3⟩
        | succ i => exact .inr ⟨i, x, by simpa using h1, by simpa using h2, h3⟩
      · rintro (⟨h1, h2⟩ | ⟨i, x, h1, h2, h3⟩)
        · exact ⟨0, m, by simp, by simp [h1], h2⟩
        · exact ⟨i + 1, x, by simpa using h1, by simpa using h2, h3⟩
    cases h with
    | false =>
      obtain ⟨t', e, v'⟩ := markThreads_ok ms hs tids v (fun m h => hm m (by simp [h]))
      refine ⟨t', by simp [markThreads, e], v'.congr ?_⟩
      intro t _; rw [shift]; simp
    | true =>
      have v1 : IsVec N (tids.set m.tid true) (fun t => Q t ∨ m.tid = t) := by
        refine ⟨by simpa using v.1, ?_⟩
        intro t ht
        by_cases he : m.tid = t
        · subst he; simp [v.1, ht]
        · simp only [List.getElem?_set_ne he, he, or_false]; exact v.2 t ht
      obtain ⟨t', e, v'⟩ := markThreads_ok ms hs _ v1 (fun m h => hm m (by simp [h]))
      refine ⟨t', by simp [markThreads, v.1, hlt, e], v'.congr ?_⟩
      intro t _; rw [shift]; simp [or_assoc]

theorem spreadThreads_ok {N tids} (hN : tids.length = N) : ∀ (msgs : List DbMsg) (hits : List Bool),
    msgs.length = hits.length → (∀ m ∈ msgs, m.tid < N) →
    ∃ h', spreadThreads tids msgs hits = .ok h' ∧ h'.length = msgs.length ∧
      ∀ i : Nat, h'[i]? = some true ↔ (hits[i]? = some true ∨ ∃ m, msgs[i]? = some m ∧ tids[m.tid]? = some true)
  | [], hits, hl, _ => by
    have : hits = [] := by simpa using hl.symm
    subst this
    exact ⟨[], rfl, rfl, by simp⟩
  | m :: ms, [], hl, _ => by simp at hl
  | m :: ms, h :: hs, hl, hm => by
    obtain ⟨h', e, l', v⟩ := spreadThreads_ok hN ms hs (by simpa using hl) (fun m h => hm m (by simp [h]))
    have hlt : m.tid < tids.length := by rw [hN]; exact hm m (by simp)
    have ht : tids[m.tid]? = some tids[m.tid] := by simp [hlt]
    refine ⟨(if tids[m.tid] then true else h) :: h', ?_, by simp [l'], ?_⟩
    · simp only [spreadThreads, ht, e, bind, Except.bind]
    · intro i
      cases i with
      | zero => cases hb : tids[m.tid] <;> simp [ht, hb]
      | succ i => simpa using v i

/-- Thread expansion marks everything in the thread of a hit, if thread numbers are in range. -/
theorem expandThreads_ok {db : ReadDb} {n hits P} (hn : db.msgs.length = n) (v : IsVec n hits P)
    (ht : ∀ m ∈ db.msgs, m.tid < n) :
    ∃ h', expandThreads db hits = .ok h' ∧
      IsVec n h' (fun i => ∃ (j : Nat) (m m' : DbMsg), db.msgs[i]? = some m ∧ db.msgs[j]? = some m' ∧ P j ∧ m'.tid = m.tid) := by
  have hz : IsVec n (List.replicate db.msgs.length false) (fun _ => False) := by rw [hn]; exact isVec_zeros _
  obtain ⟨t, e1, vt⟩ := markThreads_ok db.msgs hits _ hz ht
  obtain ⟨h', e2, hl, hv⟩ := spreadThreads_ok vt.1 db.msgs hits (by rw [hn, v.1]) ht
  refine ⟨h', by simp only [expandThreads, e1, bind, Except.bind]; exact e2, by rw [hl, hn], ?_⟩
  intro i hi
  rw [hv]
  have hm : db.msgs[i]? = some (db.msgs[i]'(by omega)) := by simp [hn, hi]
  have htid := ht _ (List.getElem_mem (l := db.msgs) (n := i) (by omega))
  constructor
  · rintro (h | ⟨m, h1, h2⟩)
    · exact ⟨i, _, _, hm, hm, (v.2 i hi).1 h, rfl⟩
    · rw [hm] at h1; cases h1
      rcases (vt.2 _ htid).1 h2 with h | ⟨j, m', h3, h4, h5⟩
      · exact h.elim
      · have hj : j < n := by rw [← hn]; exact (List.getElem?_eq_some_iff.1 h3).1
        exact ⟨j, _, m', hm, h3, (v.2 j hj).1 h4, h5⟩
  · rintro ⟨j, m, m', h1, h2, h3, h4⟩
    right
    have hj : j < n := by rw [← hn]; exact (List.getElem?_eq_some_iff.1 h2).1
    rw [hm] at h1; cases h1
    exact ⟨_, hm, (vt.2 _ htid).2 (.inr ⟨j, m', h2, (v.2 j hj).2 h3, h4⟩)⟩

/-! ## The list of results -/

theorem collect_ok : ∀ (msgs : List DbMsg) (hits : List Bool) (i : Nat),
    (∀ x ∈ collect i msgs hits, i ≤ x) ∧ (collect i msgs hits).Pairwise (· < ·) ∧
    ∀ j, i + j ∈ collect i msgs hits ↔ ∃ m, msgs[j]? = some m ∧ hits[j]? = some true ∧ m.type ≠ DB_MSG_DEAD
  | [], hits, i => by simp [collect]
  | m :: ms, [], i => by simp [collect]
  | m :: ms, h :: hs, i => by
    obtain ⟨h1, h2, h3⟩ := collect_ok ms hs (i + 1)
    have step : ∀ j, i + (j + 1) ∈ collect (i + 1) ms hs ↔
        ∃ m, ms[j]? = some m ∧ hs[j]? = some true ∧ m.type ≠ DB_MSG_DEAD := by
      intro j; rw [← h3]; rw [show i + (j + 1) = i + 1 + j by omega]
    by_cases hc : (h && m.type != DB_MSG_DEAD) = true
    · have hc' : h = true ∧ m.type ≠ DB_MSG_DEAD := by simpa using hc
      simp only [collect, hc, if_true]
      refine ⟨?_, ?_, ?_⟩
      · intro x hx
        rcases List.mem_cons.1 hx with rfl | hx
        · exact Nat.le_refl _
        · have := h1 x hx; omega
      · rw [List.pairwise_cons]
        exact ⟨fun x hx => by have := h1 x hx; omega, h2⟩
      · intro j
        cases j with
        | zero => simp [hc']
        | succ j =>
          rw [List.mem_cons, step]
          simp
    · simp only [collect, hc]
      refine ⟨fun x hx => by have := h1 x hx; omega, h2, ?_⟩
      intro j
      cases j with
      | zero =>
        simp only [Nat.add_zero, List.getElem?_cons_zero, Option.some.injEq]
        constructor
        · intro h; have := h1 _ h; omega
        · rintro ⟨_, rfl, h4, h5⟩; simp [h4, h5] at hc
      | succ j => simpa using step j

end Mairix
