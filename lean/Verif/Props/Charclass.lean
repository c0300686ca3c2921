import Verif.Proofs.CharScanner
import Verif.Props.Dfasyn

/-!
# C63: character classes in dfasyn
-/

namespace Mairix
open Spec

/-- A token for the end; an identifier, blanks and the end: `[a-zA-Z_] [0-9a-zA-Z_]* [^0-9a-zA-Z_]`. -/
def wordAuto : CAuto where
  states := [
    ⟨[.cls (.simple ⟨[.range 97 122, .range 65 90, .single 95], false⟩) 1], []⟩,
    ⟨[.cls (.simple ⟨[.range 48 57, .range 97 122, .range 65 90, .single 95], false⟩) 1,
      .cls (.minus ⟨[.range 32 126], false⟩ ⟨[.range 48 57, .range 97 122, .range 65 90, .single 95], false⟩) 2, .token 0 2], []⟩,
    ⟨[], [bs "done"]⟩]
  nt := 1
  evaluators := [⟨[⟨bs "PASS", .tag (bs "done"), false⟩], some (bs "FAIL")⟩]
  defs := []

/-- **C63.** Let the classes of the input file be safe and not empty, and let the generator accept the file. Then for all sequences of characters and
tokens, from all entries, the scanner with the table `char2tok` ends without reading outside its tables, and either it is in a state whose row in the
tables is what the input file says of the sequence, where a class stands for the characters written between the brackets, or it has
stopped and for no continuation the file says anything but the defaults. If the automaton was compressed, it has stopped as soon as that is so.
Missing: classes that are not safe (`C63_inverted_violation`) or empty (`C63_empty_violation`), and more than 32768 states. -/
theorem C63_scan_partial {sort : StateSort} (hsort : SortsStates sort) {compress : Bool} {a : CAuto} (hp : Proper a) {entries : List Nat} {sc : CharScanner}
    (h : generateChars sort compress a entries = .ok sc) (hn : sc.scanner.nodes.length ≤ 32768) :
    Pairs (fun e s => ∀ w : List Sym, (∀ x ∈ w, x.Known a.nt) →
      (scanWith sc.scanner.nextPlain (stateNumber s) (w.map (Sym.number sc.char2tok)) = .ok (-1) ∧ CHopeless a e w) ∨
      (∃ (j : Nat) (xs : List Text), scanWith sc.scanner.nextPlain (stateNumber s) (w.map (Sym.number sc.char2tok)) = .ok (j : Int) ∧
        sc.scanner.attrs j = .ok xs ∧ CNoStop a e w ∧ COutcome a e w xs ∧ (compress = true → ¬ CHopeless a e w))) entries sc.scanner.entries := by
  obtain ⟨m, n, states, hex, heq⟩ := generateChars_eq hp
  rw [heq] at h
  cases hg : generate sort compress (a.expanded n states) entries with
  | error f => rw [hg] at h; cases h
  | ok sc' =>
    rw [hg] at h
    cases h
    refine pairs_mono (fun e s hs w hw => hex.scans ?_ hs w hw) (C62_plain_partial hsort hg hn)
    intro j _
    unfold Scanner.nextPlain nextUncompressed
    rw [if_pos (Or.inl (by omega))]

/-- **C63.** The same with compressed tables. Missing: classes that are not safe or empty, more than 256 tokens and parts of classes together (`C62_token_violation`), 65535 transitions or 32768 states. -/
theorem C63_packed_partial {sort : StateSort} (hsort : SortsStates sort) {compress : Bool} {a : CAuto} (hp : Proper a) {entries : List Nat} {sc : CharScanner}
    (h : generateChars sort compress a entries = .ok sc) (hn : sc.scanner.nodes.length ≤ 32768) (ht : sc.scanner.nt ≤ 256) (hc : listedCount sc.scanner.nt sc.scanner.nodes ≤ 65535) :
    Pairs (fun e s => ∀ w : List Sym, (∀ x ∈ w, x.Known a.nt) →
      (scanWith sc.scanner.nextPacked (stateNumber s) (w.map (Sym.number sc.char2tok)) = .ok (-1) ∧ CHopeless a e w) ∨
      (∃ (j : Nat) (xs : List Text), scanWith sc.scanner.nextPacked (stateNumber s) (w.map (Sym.number sc.char2tok)) = .ok (j : Int) ∧
        sc.scanner.attrs j = .ok xs ∧ CNoStop a e w ∧ COutcome a e w xs ∧ (compress = true → ¬ CHopeless a e w))) entries sc.scanner.entries := by
  obtain ⟨m, n, states, hex, heq⟩ := generateChars_eq hp
  rw [heq] at h
  cases hg : generate sort compress (a.expanded n states) entries with
  | error f => rw [hg] at h; cases h
  | ok sc' =>
    rw [hg] at h
    cases h
    obtain ⟨h1, _, h3, _, _⟩ := generate_spec hsort hg
    simp only at ht hc hn
    rw [h1] at ht hc
    refine pairs_mono (fun e s hs w hw => hex.scans ?_ hs w hw) (C62_packed_partial hsort hg hn ht hc)
    intro j hj
    unfold Scanner.nextPacked
    rw [h1]
    exact next_compressed_neg ⟨fun d hd => (h3 d hd).1, fun d hd => (h3 d hd).2, hn⟩ ht hc hj (by omega) 0

/-- The scanner for words. -/
def wordScanner : CharScanner :=
  match generateChars isort true wordAuto [0] with
  | .ok sc => sc
  | .error _ => ⟨[], ⟨0, [], [], []⟩⟩

theorem wordAuto_proper : Proper wordAuto := by
  intro s hs tr htr
  have key : ∀ e : ClassExpr, ∀ d, (.cls e d : CTrans) ∈ s.trans → SafeClass e ∧ ∃ c, InClass c e := by
    intro e d he
    simp only [wordAuto, List.mem_cons, List.not_mem_nil, or_false] at hs
    rcases hs with rfl | rfl | rfl
    · simp only [List.mem_cons, List.not_mem_nil, or_false, CTrans.cls.injEq] at he
      obtain ⟨rfl, _⟩ := he
      exact ⟨(fun h => by cases h), 97, Or.inl ⟨rfl, _, List.mem_cons_self, Or.inl (by decide)⟩⟩
    · simp only [List.mem_cons, List.not_mem_nil, or_false, CTrans.cls.injEq, reduceCtorEq] at he
      rcases he with ⟨rfl, _⟩ | ⟨rfl, _⟩
      · exact ⟨(fun h => by cases h), 48, Or.inl ⟨rfl, _, List.mem_cons_self, Or.inl (by decide)⟩⟩
      · refine ⟨⟨(fun h => by rcases h with h | h <;> cases h), (fun h => by cases h)⟩, 32, Or.inl ⟨rfl, _, List.mem_cons_self, Or.inl (by decide)⟩, ?_⟩
        rintro (⟨_, i, hi, hin⟩ | ⟨h, _⟩)
        · simp only [List.mem_cons, List.not_mem_nil, or_false] at hi
          rcases hi with rfl | rfl | rfl | rfl
          · revert hin; unfold InItem; decide
          · revert hin; unfold InItem; decide
          · revert hin; unfold InItem; decide
          · revert hin; unfold InItem; decide
        · cases h
    · cases he
  cases tr with
  | eps d => trivial
  | token t d =>
    simp only [wordAuto, List.mem_cons, List.not_mem_nil, or_false] at hs
    rcases hs with rfl | rfl | rfl
    · simp at htr
    · simp only [List.mem_cons, List.not_mem_nil, or_false, reduceCtorEq, false_or, CTrans.token.injEq] at htr
      obtain ⟨rfl, _⟩ := htr
      show 0 < wordAuto.nt
      decide
    · cases htr
  | cls e d => exact key e d htr

example : Proper wordAuto ∧ generateChars isort true wordAuto [0] = .ok wordScanner ∧ wordScanner.scanner.nodes.length ≤ 32768 ∧
    scanWith wordScanner.scanner.nextPlain 0 ((bs "a_1 ").map fun c => (Sym.chr c).number wordScanner.char2tok) = .ok 2 ∧
    wordScanner.scanner.attrs 2 = .ok [bs "PASS"] ∧
    scanWith wordScanner.scanner.nextPlain 0 (([.chr 97, .tok 0] : List Sym).map (Sym.number wordScanner.char2tok)) = .ok 2 ∧
    scanWith wordScanner.scanner.nextPlain 0 ((bs "1a").map fun c => (Sym.chr c).number wordScanner.char2tok) = .ok (-1) ∧
    wordScanner.scanner.nt ≤ 256 ∧ listedCount wordScanner.scanner.nt wordScanner.scanner.nodes ≤ 65535 ∧
    scanWith wordScanner.scanner.nextPacked 0 ((bs "a_1 ").map fun c => (Sym.chr c).number wordScanner.char2tok) = .ok 2 ∧
    scanWith wordScanner.scanner.nextPacked 0 ((bs "a\t").map fun c => (Sym.chr c).number wordScanner.char2tok) = .ok (-1) :=
  ⟨wordAuto_proper, by decide +kernel⟩

/-- **C63.** The generator always ends if classes are safe and not empty, tag definitions are not circular and transitions lead to states: it rejects a
file without a default for a table (exit 1); otherwise it accepts the file just if for no sequence of characters and tokens two attributes of a table
hold at once, and no state has a tag that is defined by an expression (else exit 2). -/
theorem C63_accepts_partial {sort : StateSort} (hsort : SortsStates sort) (compress : Bool) {a : CAuto} (hp : Proper a) {entries : List Nat}
    (hr : InStates a entries) (hd : Acyclic a.defs) :
    ((∃ ev ∈ a.evaluators, ev.default = none) ∧ generateChars sort compress a entries = .error (.exit 1)) ∨
    ((∃ ds, Pairs (fun ev x => ev.default = some x) a.evaluators ds) ∧ CWrong a entries ∧ generateChars sort compress a entries = .error (.exit 2)) ∨
    ((∃ ds, Pairs (fun ev x => ev.default = some x) a.evaluators ds) ∧ ¬ CWrong a entries ∧ ∃ sc, generateChars sort compress a entries = .ok sc) := by
  obtain ⟨m, n, states, hex, heq⟩ := generateChars_eq hp
  rw [heq]
  rcases C62_accepts hsort compress (hex.inRange hr) (show Acyclic (a.expanded n states).defs from hd) with ⟨h1, h2⟩ | ⟨h1, h2, h3⟩ | ⟨h1, h2, sc, h3⟩
  · exact Or.inl ⟨h1, by rw [h2]; rfl⟩
  · exact Or.inr (Or.inl ⟨h1, (hex.wrong entries).1 h2, by rw [h3]; rfl⟩)
  · exact Or.inr (Or.inr ⟨h1, fun hw => h2 ((hex.wrong entries).2 hw), _, by rw [h3]; rfl⟩)

example : Proper wordAuto ∧ InStates wordAuto [0] ∧ Acyclic wordAuto.defs :=
  ⟨wordAuto_proper, ⟨by unfold dest; decide +kernel, by decide +kernel⟩, ⟨fun _ => 0, fun d hd => by cases hd⟩⟩

/-- A file with the class. -/
def classAuto (e : ClassExpr) : CAuto where
  states := [⟨[.cls e 1], []⟩, ⟨[], [bs "done"]⟩]
  nt := 0
  evaluators := [⟨[⟨bs "PASS", .tag (bs "done"), false⟩], some (bs "FAIL")⟩]
  defs := []

/-- **C63.** Finding: where `long` has 64 bits, the generator does not survive `[^?]`, nor any other inverted class as the only one if one of the
characters in it is 0x1f, `?`, `_`, DEL, 0x9f, 0xbf, 0xdf or 0xff. The bits are in `unsigned long` words of which 32 bits are used;
`1<<31` is negative as an `int` and is extended to the upper half when the bit for the character is set, the inversion clears the lower bit only, and
the test of the bit sees the upper half. The loop that splits the classes never removes it and stores beyond the end of its array. -/
theorem C63_inverted_violation (sort : StateSort) (compress : Bool) {s : SimpleClass} (hs : s.caret = true) {c : UInt8} (hc : c.toNat % 32 = 31)
    (hin : InItems c s) : generateChars sort compress (classAuto (.simple s)) [0] = .error .outOfBounds := by
  have hclt := c.toNat_lt
  obtain ⟨h1, h2⟩ := items_bits s
  have hlo := (h2 c).2 hin
  have hb : s.bits = (s.items.foldl addItem .empty).invert := by
    unfold SimpleClass.bits
    simp only [hs, if_true]
  have hidx : 32 * (c.toNat / 32) + 31 = c.toNat := by omega
  have hcls : (classAuto (.simple s)).classes = [s.bits] := rfl
  have := split_stuck (cc := s.bits) (i := c.toNat / 32) (by omega) (by rw [hb, CharBits.up_invert, h1 _ (by omega), hidx, hlo])
    (by rw [hidx, hb, CharBits.lo_invert hclt, hlo]; rfl)
  unfold generateChars
  rw [hcls, this]
  rfl

example : InItems 63 ⟨[.single 63], true⟩ ∧ (63 : UInt8).toNat % 32 = 31 := ⟨⟨_, List.mem_cons_self, rfl⟩, by decide⟩

example : ¬ SafeClass (.simple ⟨[.single 63], true⟩) ∧ SafeClass (.simple ⟨[.single 62], true⟩) ∧
    ∃ sc, generateChars isort true (classAuto (.simple ⟨[.single 62], true⟩)) [0] = .ok sc := by
  refine ⟨fun h => h rfl 63 (by decide) ⟨_, List.mem_cons_self, rfl⟩, ?_, ?_⟩
  · intro _ c hc hin
    obtain ⟨i, hi, hin⟩ := hin
    rw [List.mem_singleton] at hi
    subst hi
    have : c = 62 := hin
    subst this
    revert hc
    decide
  · have : (generateChars isort true (classAuto (.simple ⟨[.single 62], true⟩)) [0]).toOption.isSome = true := by decide +kernel
    cases h : generateChars isort true (classAuto (.simple ⟨[.single 62], true⟩)) [0] with
    | ok sc => exact ⟨sc, rfl⟩
    | error e => rw [h] at this; cases this

/-- **C63.** Finding: the generator does not survive a class without characters (`[a]~[a]`): alone it makes it read before its bitmap, beside other
classes it ends it with a failed assertion. -/
theorem C63_empty_violation :
    generateChars isort true (classAuto (.minus ⟨[.single 97], false⟩ ⟨[.single 97], false⟩)) [0] = .error .outOfBounds ∧
    generateChars isort true
      { classAuto (.simple ⟨[.single 97], false⟩) with states := [⟨[.cls (.simple ⟨[.single 97], false⟩) 1,
          .cls (.minus ⟨[.single 97], false⟩ ⟨[.single 97], false⟩) 1], []⟩, ⟨[], [bs "done"]⟩] } [0] = .error .assertion := by
  decide +kernel

end Mairix
