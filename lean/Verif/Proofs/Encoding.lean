import Verif.Model.Encoding

/-! Lemmas about the message list encoding. -/

namespace Mairix

theorem readNext_length {acc : Nat} {b : List UInt8} {v : Nat} {r : List UInt8}
    (h : readNext acc b = some (v, r)) : r.length < b.length := by
  unfold readNext at h
  split at h
  · cases h
  · split at h
    · cases h
    · split at h
      · split at h <;> simp_all
        omega
      · split at h
        · split at h <;> simp_all
          omega
        · simp_all

/-- More fuel than bytes does not change the loop. -/
theorem readLoop_fuel : ∀ (fuel acc : Nat) (b : List UInt8), b.length ≤ fuel →
    readLoop fuel acc b = readLoop b.length acc b := by
  intro fuel
  induction fuel using Nat.strongRecOn with
  | ind fuel ih =>
    intro acc b hb
    cases fuel with
    | zero =>
      have : b.length = 0 := by omega
      rw [this]
    | succ fuel =>
      cases hl : b.length with
      | zero =>
        have : b = [] := List.length_eq_zero_iff.mp hl
        subst this
        simp [readLoop, readNext]
      | succ n =>
        simp only [readLoop]
        cases hr : readNext acc b with
        | none => rfl
        | some p =>
          obtain ⟨v, r⟩ := p
          have := readNext_length hr
          simp only
          rw [ih fuel (by omega) v r (by omega), ih n (by omega) v r (by omega)]

/-- The unfolding equation of the reading loop. -/
theorem readLoop_eq (acc : Nat) (b : List UInt8) :
    readLoop b.length acc b =
      match readNext acc b with
      | none => ([], b)
      | some (v, r) => (v :: (readLoop r.length v r).1, (readLoop r.length v r).2) := by
  cases hl : b.length with
  | zero =>
    have : b = [] := List.length_eq_zero_iff.mp hl
    subst this
    simp [readLoop, readNext]
  | succ n =>
    simp only [readLoop]
    cases hr : readNext acc b with
    | none => rfl
    | some p =>
      obtain ⟨v, r⟩ := p
      have := readNext_length hr
      simp only
      rw [readLoop_fuel n v r (by omega)]

/-- Values a reader started at accumulator `acc` delivers. -/
def readFrom (acc : Nat) (b : List UInt8) : List Nat := (readLoop b.length acc b).1

theorem readFrom_none {acc b} (h : readNext acc b = none) : readFrom acc b = [] := by
  unfold readFrom; rw [readLoop_eq, h]

theorem readFrom_some {acc b v r} (h : readNext acc b = some (v, r)) :
    readFrom acc b = v :: readFrom v r := by
  unfold readFrom; rw [readLoop_eq, h]

theorem toNat_ofNat8 (n : Nat) (h : n < 256) : (UInt8.ofNat n).toNat = n := by
  simp [UInt8.toNat_ofNat']; omega

private theorem lead4 : ∀ n < 64, (n < 63 → UInt8.ofNat (n ||| 0xc0) ≠ 0xff) ∧
    UInt8.ofNat (n ||| 0xc0) &&& 0xc0 = 0xc0 ∧ (UInt8.ofNat (n ||| 0xc0) &&& 0x3f).toNat = n := by
  decide +kernel

private theorem lead2 : ∀ n < 64, UInt8.ofNat (n ||| 0x80) ≠ 0xff ∧
    UInt8.ofNat (n ||| 0x80) &&& 0xc0 ≠ 0xc0 ∧ UInt8.ofNat (n ||| 0x80) &&& 0x80 ≠ 0 ∧
    (UInt8.ofNat (n ||| 0x80) &&& 0x7f).toNat = n := by
  decide +kernel

private theorem lead1 : ∀ n < 128, UInt8.ofNat n ≠ 0xff ∧
    UInt8.ofNat n &&& 0xc0 ≠ 0xc0 ∧ UInt8.ofNat n &&& 0x80 = 0 := by
  decide +kernel

theorem and_255 (v : Nat) : v &&& 0xff = v % 256 := Nat.and_two_pow_sub_one_eq_mod v 8

/-- What one encoded value looks like to the reader. -/
theorem readNext_insertValue {v : Nat} (hv : v < 0x3F000000) :
    ∃ b, insertValue v = .ok b ∧ b ≠ [] ∧ b.length ≤ 4 ∧
      ∀ acc rest, readNext acc (b ++ rest) = some (acc + v, rest) := by
  unfold insertValue
  split
  · next h =>
    obtain ⟨h1, h2, h3⟩ := lead1 v (by omega)
    refine ⟨_, rfl, by simp, by simp, fun acc rest => ?_⟩
    simp [readNext, h1, h2, h3, toNat_ofNat8 v (by omega)]
  · split
    · next h =>
      obtain ⟨h1, h2, h3, h4⟩ := lead2 (v >>> 8) (by simp [Nat.shiftRight_eq_div_pow]; omega)
      refine ⟨_, rfl, by simp, by simp, fun acc rest => ?_⟩
      simp only [List.cons_append, List.nil_append, readNext, h1, h2, h3, h4, if_false,
        ne_eq, not_true_eq_false, not_false_eq_true, if_true, and_255,
        toNat_ofNat8 (v % 256) (by omega)]
      simp only [Nat.shiftRight_eq_div_pow, Nat.shiftLeft_eq]
      congr 2; omega
    · next h h' =>
      have ha : v >>> 24 < 63 := by simp [Nat.shiftRight_eq_div_pow]; omega
      obtain ⟨h1, h2, h4⟩ := lead4 (v >>> 24) (by omega)
      have h1 := h1 ha
      refine ⟨[UInt8.ofNat ((v >>> 24) ||| 0xc0), UInt8.ofNat ((v >>> 16) &&& 0xff),
           UInt8.ofNat ((v >>> 8) &&& 0xff), UInt8.ofNat (v &&& 0xff)], ?_, by simp, by simp, fun acc rest => ?_⟩
      · simp only; rw [if_pos (by omega)]
      · simp only [List.cons_append, List.nil_append, readNext, h1, h2, h4, if_false,
          if_true, and_255, toNat_ofNat8 (v % 256) (by omega),
          toNat_ofNat8 (v >>> 16 % 256) (by omega), toNat_ofNat8 (v >>> 8 % 256) (by omega)]
        simp only [Nat.shiftRight_eq_div_pow, Nat.shiftLeft_eq]
        congr 2; omega

/-- A list in memory: `Valid m l` says that the bytes decode to `l`, whatever follows, that the
last index is right and that the buffer is in its proper shape. -/
structure Valid (m : Matches) (l : List Nat) : Prop where
  fits : m.bytes.length ≤ m.max
  maxOk : m.max = 0 ∨ 16 ≤ m.max
  empty : m.bytes = [] ↔ l = []
  highest : l ≠ [] → l.getLast? = some m.highest
  increasing : l.Pairwise (· < ·)
  /-- continuing to read behind the bytes of the list -/
  decode : ∀ rest, readFrom 0 (m.bytes ++ rest) = l ++ readFrom (l.getLast?.getD 0) rest
  consumed : ∀ rest, (readLoop (m.bytes ++ rest).length 0 (m.bytes ++ rest)).2 =
    (readLoop rest.length (l.getLast?.getD 0) rest).2

/-- What adding index `i` does to the list of recorded indices. -/
def addAbs (l : List Nat) (i : Nat) : List Nat := if i ∈ l then l else l ++ [i]

theorem valid_init : Valid initMatches [] :=
  { fits := by simp [initMatches]
    maxOk := by simp [initMatches]
    empty := by simp [initMatches]
    highest := by simp
    increasing := by simp
    decode := by simp [initMatches]
    consumed := by simp [initMatches] }

theorem checkAndEnlarge_bytes (m : Matches) : (checkAndEnlarge m).bytes = m.bytes := by
  unfold checkAndEnlarge; split
  · split <;> rfl
  · rfl

theorem checkAndEnlarge_highest (m : Matches) : (checkAndEnlarge m).highest = m.highest := by
  unfold checkAndEnlarge; split
  · split <;> rfl
  · rfl

theorem checkAndEnlarge_room {m : Matches} (h1 : m.bytes.length ≤ m.max)
    (h2 : m.max = 0 ∨ 16 ≤ m.max) :
    m.bytes.length + 4 ≤ (checkAndEnlarge m).max ∧ 16 ≤ (checkAndEnlarge m).max := by
  unfold checkAndEnlarge; split
  · split
    · next h => simp; omega
    · simp only [Nat.shiftRight_eq_div_pow]; omega
  · omega

theorem insertValue_length {v : Nat} {b : List UInt8} (h : insertValue v = .ok b) :
    0 < b.length ∧ b.length ≤ 4 := by
  unfold insertValue at h
  split at h
  · cases h; simp
  · split at h
    · cases h; simp
    · simp only at h
      split at h
      · cases h; simp
      · cases h

/-- Shape of the buffer of a message list. -/
def Fits (m : Matches) : Prop := m.bytes.length ≤ m.max ∧ (m.max = 0 ∨ 16 ≤ m.max)

theorem addIndex_fits {m : Matches} (hm : Fits m) (i : Nat) :
    (∃ m', addIndex m i = .ok m' ∧ Fits m') ∨ addIndex m i = .error .assertion := by
  obtain ⟨r1, r2⟩ := checkAndEnlarge_room hm.1 hm.2
  have hb := checkAndEnlarge_bytes m
  unfold addIndex
  generalize checkAndEnlarge m = c at *
  have key : ∀ v, (∃ m', (do
      let b ← insertValue v
      let m ← storeBytes c b
      Except.ok { m with highest := i } : Res Matches) = .ok m' ∧ Fits m') ∨
      (do
      let b ← insertValue v
      let m ← storeBytes c b
      Except.ok { m with highest := i } : Res Matches) = .error .assertion := by
    intro v
    cases hv : insertValue v with
    | ok b =>
      left
      have hl := insertValue_length hv
      have : c.bytes.length + b.length ≤ c.max := by rw [hb]; omega
      refine ⟨_, by simp only [bind, Except.bind, storeBytes, if_pos this]; rfl, ?_, ?_⟩
      · simpa using this
      · right; simpa using r2
    | error e =>
      right
      unfold insertValue at hv
      split at hv
      · cases hv
      · split at hv
        · cases hv
        · simp only at hv
          split at hv
          · cases hv
          · cases hv; rfl
  unfold insertIndex
  split
  · exact key i
  · split
    · right; rfl
    · split
      · exact key _
      · left; refine ⟨_, rfl, ?_, ?_⟩
        · simp [hb]; omega
        · right; exact r2

theorem lt_of_getLast {l : List Nat} (h : l.Pairwise (· < ·)) {x : Nat} (hx : l.getLast? = some x) :
    ∀ y ∈ l, y ≤ x := by
  obtain ⟨l', rfl⟩ : ∃ l', l = l' ++ [x] := by
    have := List.getLast?_eq_some_iff.mp hx
    exact this
  intro y hy
  rw [List.pairwise_append] at h
  rcases List.mem_append.mp hy with h1 | h1
  · exact Nat.le_of_lt (h.2.2 y h1 x (by simp))
  · simp at h1; omega

theorem addIndex_valid {m : Matches} {l : List Nat} (hm : Valid m l) {i : Nat}
    (hle : ∀ x ∈ l, x ≤ i) (hgap : i < l.getLast?.getD 0 + 0x3F000000) :
    ∃ m', addIndex m i = .ok m' ∧ Valid m' (addAbs l i) ∧ m'.highest = i := by
  obtain ⟨r1, r2⟩ := checkAndEnlarge_room hm.fits hm.maxOk
  have hb := checkAndEnlarge_bytes m
  have hh := checkAndEnlarge_highest m
  unfold addIndex
  generalize checkAndEnlarge m = c at *
  -- appending one encoded gap
  have key : ∀ v, v < 0x3F000000 → l.getLast?.getD 0 + v = i → i ∉ l →
      ∃ m', (do
      let b ← insertValue v
      let m ← storeBytes c b
      Except.ok { m with highest := i } : Res Matches) = .ok m' ∧ Valid m' (l ++ [i]) ∧ m'.highest = i := by
    intro v hv hvi hil
    obtain ⟨b, hbv, hbne, hbl, hread⟩ := readNext_insertValue hv
    have hroom : c.bytes.length + b.length ≤ c.max := by rw [hb]; omega
    refine ⟨{ c with bytes := c.bytes ++ b, highest := i }, ?_, ?_, rfl⟩
    · simp only [hbv, bind, Except.bind, storeBytes, if_pos hroom]
    · refine ⟨by simpa using hroom, Or.inr (by simpa using r2), by simp [hbne], by simp, ?_, ?_, ?_⟩
      · rw [List.pairwise_append]
        refine ⟨hm.increasing, by simp, ?_⟩
        intro a ha b hb'
        simp at hb'
        subst hb'
        have := hle a ha
        rcases Nat.lt_or_ge a b with h | h
        · exact h
        · exact absurd (by rwa [show a = b by omega] at ha) hil
      · intro rest
        simp only [hb, List.append_assoc]
        rw [hm.decode, readFrom_some (hread _ _), hvi]
        simp
      · intro rest
        simp only [hb, List.append_assoc]
        rw [hm.consumed, readLoop_eq, hread]
        simp [hvi]
  unfold insertIndex
  rw [hb, hh]
  by_cases hl : l = []
  · have : m.bytes.length = 0 := by simp [hm.empty.mpr hl]
    rw [if_pos this]
    subst hl
    obtain ⟨m', h1, h2, h3⟩ := key i (by simpa using hgap) (by simp) (by simp)
    exact ⟨m', h1, by simpa [addAbs] using h2, h3⟩
  · have hne : ¬ m.bytes.length = 0 := by
      intro h; exact hl (hm.empty.mp (List.length_eq_zero_iff.mp h))
    have hlast := hm.highest hl
    have hmem : m.highest ∈ l := List.mem_of_getLast? hlast
    have hle' := hle _ hmem
    rw [if_neg hne, if_neg (by omega)]
    rw [hlast] at hgap
    simp at hgap
    split
    · next hgt =>
      have hnot : i ∉ l := by
        intro hmem'
        have := lt_of_getLast hm.increasing hlast i hmem'
        omega
      obtain ⟨m', h1, h2, h3⟩ := key (i - m.highest) (by omega) (by rw [hlast]; simp; omega) hnot
      exact ⟨m', h1, by simpa [addAbs, hnot] using h2, h3⟩
    · have hi : i = m.highest := by omega
      subst hi
      refine ⟨_, rfl, ?_, rfl⟩
      rw [addAbs, if_pos hmem]
      refine ⟨by simp only [hb]; omega, Or.inr (by simpa using r2), by simpa [hb] using hm.empty, fun _ => hlast, hm.increasing, ?_, ?_⟩
      · simpa [hb] using hm.decode
      · simpa [hb] using hm.consumed

/-- Copying a list out of the file image reproduces it. -/
theorem readerCopy_valid {m : Matches} {l : List Nat} (hm : Valid m l) (junk : Nat)
    (rest : List UInt8) :
    Valid (readerCopy junk (m.bytes ++ 0xff :: rest)) l ∧
      (readerCopy junk (m.bytes ++ 0xff :: rest)).bytes = m.bytes ∧
      (readerCopy junk (m.bytes ++ 0xff :: rest)).highest = l.getLast?.getD junk := by
  have hff : ∀ acc, readNext acc (0xff :: rest) = none := by intro acc; simp [readNext]
  have h2 : (readLoop (m.bytes ++ 0xff :: rest).length 0 (m.bytes ++ 0xff :: rest)).2 = 0xff :: rest := by
    rw [hm.consumed, readLoop_eq, hff]
  have h1 : (readLoop (m.bytes ++ 0xff :: rest).length 0 (m.bytes ++ 0xff :: rest)).1 = l := by
    have := hm.decode (0xff :: rest)
    unfold readFrom at this
    rw [this, readLoop_eq, hff]; simp
  have hb : (readerCopy junk (m.bytes ++ 0xff :: rest)).bytes = m.bytes := by
    simp only [readerCopy, h2]
    simp
  have hh : (readerCopy junk (m.bytes ++ 0xff :: rest)).highest = l.getLast?.getD junk := by
    simp only [readerCopy, h1]
  have hmax : (readerCopy junk (m.bytes ++ 0xff :: rest)).max =
      if m.bytes.length + m.bytes.length / 2 < 16 then 16 else m.bytes.length + m.bytes.length / 2 := by
    simp only [readerCopy, h2]
    simp
  refine ⟨⟨?_, ?_, by rw [hb]; exact hm.empty, ?_, hm.increasing, by rw [hb]; exact hm.decode,
    by rw [hb]; exact hm.consumed⟩, hb, hh⟩
  · rw [hb, hmax]; split <;> omega
  · rw [hmax]; split <;> omega
  · intro hl; rw [hh, hm.highest hl]; simp

theorem valid_readAll {m : Matches} {l : List Nat} (hm : Valid m l) : readAll m.bytes = l := by
  have := hm.decode []
  rw [List.append_nil, readFrom_none (b := []) rfl, List.append_nil] at this
  exact this

theorem valid_readAll_file {m : Matches} {l : List Nat} (hm : Valid m l) (rest : List UInt8) :
    readAll (m.bytes ++ 0xff :: rest) = l := by
  have := hm.decode (0xff :: rest)
  rw [readFrom_none (b := 0xff :: rest) (by simp [readNext]), List.append_nil] at this
  exact this

theorem addIndices_valid : ∀ (is : List Nat) {m : Matches} {l : List Nat}, Valid m l →
    (is.Pairwise (· ≤ ·)) → (∀ x ∈ l, ∀ i ∈ is, x ≤ i) →
    (∀ i ∈ is, i < l.getLast?.getD 0 + 0x3F000000 ∨ ∃ j ∈ is, j < i ∧ i < j + 0x3F000000) →
    ∃ m', addIndices m is = .ok m' ∧ Valid m' (is.foldl addAbs l) := by
  intro is
  induction is with
  | nil => intro m l hm _ _ _; exact ⟨m, rfl, hm⟩
  | cons i is ih =>
    intro m l hm hs hle hgap
    have hs' := List.pairwise_cons.mp hs
    have hgap0 : i < l.getLast?.getD 0 + 0x3F000000 := by
      rcases hgap i (by simp) with h | ⟨j, hj, hji, _⟩
      · exact h
      · rcases List.mem_cons.mp hj with h | h
        · omega
        · have := hs'.1 j h; omega
    obtain ⟨m1, h1, hv1, hh1⟩ := addIndex_valid hm (fun x hx => hle x hx i (by simp)) hgap0
    have hlast : (addAbs l i).getLast?.getD 0 = i := by
      have : addAbs l i ≠ [] := by unfold addAbs; split; (next h => intro h'; simp [h'] at h); simp
      rw [hv1.highest this, hh1]; rfl
    have hmem : ∀ x ∈ addAbs l i, x ∈ l ∨ x = i := by
      intro x hx; unfold addAbs at hx; split at hx
      · exact Or.inl hx
      · simpa using hx
    obtain ⟨m2, h2, hv2⟩ := ih hv1 hs'.2
      (by
        intro x hx j hj
        rcases hmem x hx with h | h
        · exact hle x h j (by simp [hj])
        · subst h; exact hs'.1 j hj)
      (by
        intro j hj
        rw [hlast]
        have hij := hs'.1 j hj
        rcases hgap j (by simp [hj]) with h | ⟨k, hk, hkj, hk'⟩
        · left
          have : l.getLast?.getD 0 ≤ i := by
            cases hl : l.getLast? with
            | none => simp
            | some y => simpa using hle y (List.mem_of_getLast? hl) i (by simp)
          omega
        · rcases List.mem_cons.mp hk with h | h
          · left; omega
          · right; exact ⟨k, h, hkj, hk'⟩)
    exact ⟨m2, by simp only [addIndices, h1, bind, Except.bind]; exact h2, hv2⟩

theorem mem_foldl_addAbs (is : List Nat) : ∀ (l : List Nat) (x : Nat),
    x ∈ is.foldl addAbs l ↔ x ∈ l ∨ x ∈ is := by
  induction is with
  | nil => simp
  | cons i is ih =>
    intro l x
    rw [List.foldl_cons, ih]
    unfold addAbs
    split
    · next h => simp; grind
    · simp; grind

theorem addIndices_fits : ∀ (is : List Nat) {m : Matches}, Fits m →
    (∃ m', addIndices m is = .ok m' ∧ Fits m') ∨ addIndices m is = .error .assertion := by
  intro is
  induction is with
  | nil => intro m hm; exact Or.inl ⟨m, rfl, hm⟩
  | cons i is ih =>
    intro m hm
    rcases addIndex_fits hm i with ⟨m', h, hf⟩ | h
    · rcases ih hf with ⟨m2, h2, hf2⟩ | h2
      · exact Or.inl ⟨m2, by simp only [addIndices, h, bind, Except.bind]; exact h2, hf2⟩
      · exact Or.inr (by simp only [addIndices, h, bind, Except.bind]; exact h2)
    · exact Or.inr (by simp only [addIndices, h, bind, Except.bind])

theorem readLoop_rest_le (b : List UInt8) : ∀ fuel acc, (readLoop fuel acc b).2.length ≤ b.length := by
  intro fuel
  induction fuel generalizing b with
  | zero => intro acc; simp [readLoop]
  | succ n ih =>
    intro acc
    simp only [readLoop]
    cases h : readNext acc b with
    | none => simp
    | some p =>
      obtain ⟨v, r⟩ := p
      have := readNext_length h
      have := ih r v
      simp only; omega

theorem readerCopy_fits (junk : Nat) (b : List UInt8) : Fits (readerCopy junk b) := by
  have := readLoop_rest_le b b.length 0
  constructor
  · simp only [readerCopy, List.length_take]
    split <;> omega
  · simp only [readerCopy]
    split <;> omega

end Mairix
