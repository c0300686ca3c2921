import Verif.Props.Mime
import Verif.Proofs.CullFuel

/-!
# Messages: every loop ends, and what can go wrong
-/

namespace Mairix
open Spec

/-- The faults that reading a message can lead to. -/
structure Tamed {α : Type} (r : Res α) : Prop where
  only : ∀ e, r = .error e → e = .outOfBounds ∨ e = .overflow

theorem tamed_ok {α : Type} (a : α) : Tamed (.ok a : Res α) := ⟨fun e h => by cases h⟩

theorem tamed_oob {α : Type} : Tamed (.error .outOfBounds : Res α) := ⟨fun e h => by cases h; exact .inl rfl⟩

theorem tamed_bind {α β : Type} {r : Res α} {f : α → Res β} (h : Tamed r) (hf : ∀ a, r = .ok a → Tamed (f a)) : Tamed (r >>= f) := by
  cases r with
  | error e => exact ⟨fun e' he => by cases he; exact h.only e rfl⟩
  | ok a => exact hf a rfl

theorem tamed_of_ok {α : Type} {r : Res α} (h : ∃ a, r = .ok a) : Tamed r := by
  obtain ⟨a, rfl⟩ := h; exact tamed_ok a

/-! ## Decoding -/

theorem storeTo_tamed (cap : Nat) (out : Text) (c : UInt8) : Tamed (storeTo cap out c) := by
  unfold storeTo; split
  · exact tamed_ok _
  · exact tamed_oob

theorem storeAll_tamed (cap : Nat) : ∀ (b out : Text), Tamed (storeAll cap out b)
  | [], out => tamed_ok _
  | c :: b, out => tamed_bind (storeTo_tamed ..) (fun o _ => storeAll_tamed cap b o)

theorem wsThenNewline_tamed : ∀ q : Text, Tamed (wsThenNewline q)
  | [] => tamed_oob
  | c :: q => by
    unfold wsThenNewline
    split
    · exact tamed_ok _
    · split
      · have := wsThenNewline_tamed q
        cases h : wsThenNewline q with
        | error e => exact ⟨fun e' he => by cases he; exact this.only e h⟩
        | ok a => exact tamed_ok _
      · exact tamed_ok _

theorem qpLoop_tamed (cap : Nat) : ∀ (fuel : Nat) (rest : Text) (n : Nat) (out : Text), n < fuel → Tamed (qpLoop cap fuel rest n out) := by
  intro fuel
  induction fuel with
  | zero => intro _ _ _ h; omega
  | succ fuel ih =>
    intro rest n out h
    unfold qpLoop
    split
    · exact tamed_ok _
    · split
      · exact tamed_oob
      · rename_i c q
        split
        · refine tamed_bind (wsThenNewline_tamed _) (fun a ha => ?_)
          split
          · exact ih _ _ _ (by omega)
          · split
            · exact tamed_bind (storeTo_tamed ..) (fun o _ => ih _ _ _ (by omega))
            · exact tamed_oob
        · exact tamed_bind (storeTo_tamed ..) (fun o _ => ih _ _ _ (by omega))

theorem b64Loop_tamed (cap : Nat) : ∀ (t : Text) (n : Nat) (s : B64) (out : Text), Tamed (b64Loop cap t n s out) := by
  intro t
  induction t with
  | nil => intro n s out; cases n <;> simp only [b64Loop]; exact tamed_ok _; exact tamed_oob
  | cons c t ih =>
    intro n s out
    cases n with
    | zero => simp only [b64Loop]; exact tamed_ok _
    | succ n =>
      simp only [b64Loop]
      split
      · exact ih _ _ _
      · split
        · refine tamed_bind (storeAll_tamed ..) (fun o _ => ?_)
          split
          · exact tamed_ok _
          · exact ih _ _ _
        · exact ih _ _ _

theorem uuSkip_tamed : ∀ (q : Text) (n : Nat), Tamed (uuSkip q n) ∧ ∀ q' n', uuSkip q n = .ok (q', n') → n' ≤ n
  | q, 0 => ⟨by unfold uuSkip; exact tamed_ok _, by intro q' n' h; unfold uuSkip at h; cases h; omega⟩
  | [], n + 1 => ⟨tamed_oob, by intro q' n' h; simp [uuSkip] at h⟩
  | c :: q, n + 1 => by
    have := uuSkip_tamed q n
    unfold uuSkip
    split
    · exact ⟨tamed_ok _, by intro q' n' h; cases h; omega⟩
    · exact ⟨this.1, fun q' n' h => by have := this.2 q' n' h; omega⟩

theorem uuGroup_tamed (len : Nat) (q : Text) : Tamed (uuGroup len q) := by
  unfold uuGroup
  repeat' split
  all_goals first | exact tamed_ok _ | exact tamed_oob

theorem uuGroups_tamed (cap : Nat) : ∀ (fuel len : Nat) (q : Text) (n : Nat) (out : Text), len < fuel → Tamed (uuGroups cap fuel len q n out) ∧ ∀ q' n' o, uuGroups cap fuel len q n out = .ok (q', n', o) → n' ≤ n := by
  intro fuel
  induction fuel with
  | zero => intro _ _ _ _ h; omega
  | succ fuel ih =>
    intro len q n out h
    unfold uuGroups
    split
    · exact ⟨tamed_ok _, by intro q' n' o h; cases h; omega⟩
    · constructor
      · exact tamed_bind (uuGroup_tamed ..) (fun b _ => tamed_bind (storeAll_tamed ..) (fun o _ => (ih _ _ _ _ (by omega)).1))
      · intro q' n' o h
        obtain ⟨b, _, h⟩ := res_bind_ok h
        obtain ⟨o', _, h⟩ := res_bind_ok h
        have := (ih _ _ _ _ (by omega)).2 q' n' o h
        omega

theorem uuLines_tamed (cap : Nat) : ∀ (fuel : Nat) (q : Text) (n : Nat) (out : Text), n < fuel → Tamed (uuLines cap fuel q n out) := by
  intro fuel
  induction fuel with
  | zero => intro _ _ _ h; omega
  | succ fuel ih =>
    intro q n out h
    unfold uuLines
    split
    · exact tamed_ok _
    · split
      · exact tamed_oob
      · split
        · exact tamed_ok _
        · rename_i c q _
          have hd : uuDec c < 64 := Nat.mod_lt _ (by omega)
          refine tamed_bind (uuGroups_tamed cap 64 (uuDec c) q (n - 1) out hd).1 (fun a ha => ?_)
          obtain ⟨q', n', o⟩ := a
          have h1 := (uuGroups_tamed cap 64 (uuDec c) q (n - 1) out hd).2 _ _ _ ha
          refine tamed_bind (uuSkip_tamed q' n').1 (fun a ha' => ?_)
          obtain ⟨q'', n''⟩ := a
          have h2 := (uuSkip_tamed q' n').2 _ _ ha'
          exact ih _ _ _ (by omega)

theorem uuFind_le : ∀ (q : Text) (n : Nat), (uuFind q n).2 ≤ n
  | [], n => Nat.le_refl _
  | c :: q, n => by
    unfold uuFind
    split
    · have := uuFind_le q (n - 1); omega
    · exact Nat.le_refl _

theorem unencode_tamed (mem : Text) (len : Nat) (enc : Option Text) : Tamed (unencodeData mem len enc) ∧ ∀ d, unencodeData mem len enc = .ok d → d.length ≤ len := by
  constructor
  · unfold unencodeData
    refine tamed_bind ?_ (fun o _ => ?_)
    · have hc : Tamed (copyBody mem len) := by unfold copyBody; split; exact tamed_ok _; exact tamed_oob
      cases decodeEncodingType enc <;> simp only [decodeAs]
      · exact hc
      · exact hc
      · exact hc
      · exact hc
      · exact qpLoop_tamed _ _ _ _ _ (by omega)
      · exact b64Loop_tamed _ _ _ _ _
      · unfold uuDecode
        have h1 := uuFind_le mem len
        refine tamed_bind (uuSkip_tamed _ _).1 (fun a ha => ?_)
        obtain ⟨q, n⟩ := a
        have h2 := (uuSkip_tamed _ _).2 _ _ ha
        exact uuLines_tamed _ _ _ _ _ (by omega)
      · exact tamed_ok _
    · split
      · exact tamed_ok _
      · exact tamed_oob
  · intro d h
    unfold unencodeData at h
    obtain ⟨o, _, h⟩ := res_bind_ok h
    split at h
    · cases h; omega
    · cases h

/-! ## Multiparts -/

theorem findBoundary_split {b : Text} : ∀ {t p r : Text}, findBoundary b t = some (p, r) → t = p ++ r ∧ bs "--" ++ b <+: r := by
  intro t
  induction t with
  | nil => intro p r h; simp [findBoundary] at h
  | cons c t ih =>
    intro p r h
    unfold findBoundary at h
    split at h
    · rename_i hc
      cases h; exact ⟨rfl, hc.2⟩
    · cases hf : findBoundary b t with
      | none => rw [hf] at h; cases h
      | some pr =>
        rw [hf] at h
        obtain ⟨p', r'⟩ := pr
        simp at h
        obtain ⟨rfl, rfl⟩ := h
        have := ih hf
        exact ⟨by rw [this.1]; rfl, this.2⟩

theorem nextBoundary_tamed (b : Text) : ∀ (fuel : Nat) (before skipped rest : Text), rest.length < fuel →
    Tamed (nextBoundary b fuel before skipped rest) ∧ ∀ p r, nextBoundary b fuel before skipped rest = .ok (.found p r) → p.length + r.length = skipped.length + rest.length ∧ bs "--" ++ b <+: r := by
  intro fuel
  induction fuel with
  | zero => intro _ _ _ h; omega
  | succ fuel ih =>
    intro before skipped rest h
    unfold nextBoundary
    cases hf : findBoundary b rest with
    | none => exact ⟨tamed_ok _, by intro p r h; cases h⟩
    | some pr =>
      obtain ⟨p, r⟩ := pr
      obtain ⟨h1, h2⟩ := findBoundary_split hf
      have h3 := congrArg List.length h1
      simp only [List.length_append] at h3
      simp only
      split
      · refine ⟨tamed_ok _, ?_⟩
        intro p' r' h'
        cases h'
        exact ⟨by simp only [List.length_append]; omega, h2⟩
      · split
        · exact ⟨tamed_ok _, by intro p r h; cases h⟩
        · rename_i n _
          have hr : 0 < r.length := by
            obtain ⟨x, rfl⟩ := h2
            simp [show bs "--" = [0x2d, 0x2d] from by decide]
          have := ih (before ++ p ++ r.take (n + 1)) (skipped ++ p ++ r.take (n + 1)) (r.drop (n + 1)) (by simp; omega)
          refine ⟨this.1, fun p' r' h' => ?_⟩
          have := this.2 p' r' h'
          refine ⟨?_, this.2⟩
          rw [this.1]
          simp only [List.length_append, List.length_take, List.length_drop]
          omega

theorem lineAfter_pos {b r : Text} (h : bs "--" ++ b <+: r) : 0 < lineAfter r := by
  unfold lineAfter
  split
  · omega
  · obtain ⟨x, rfl⟩ := h
    simp [show bs "--" = [0x2d, 0x2d] from by decide]

theorem splitParts_tamed (b : Text) : ∀ (fuel : Nat) (first : Bool) (before rest : Text), rest.length < fuel →
    Tamed (splitParts b fuel first before rest) ∧ ∀ ps e, splitParts b fuel first before rest = .ok (ps, e) → ∀ p ∈ ps, p.2 < rest.length := by
  intro fuel
  induction fuel with
  | zero => intro _ _ _ h; omega
  | succ fuel ih =>
    intro first before rest h
    have hn := nextBoundary_tamed b (rest.length + 1) before [] rest (by omega)
    unfold splitParts
    constructor
    · refine tamed_bind hn.1 (fun a ha => ?_)
      cases a with
      | missing => exact tamed_ok _
      | oops => exact tamed_ok _
      | found p r =>
        have h2 := hn.2 p r ha
        have h3 := lineAfter_pos h2.2
        have hr : 0 < r.length := by
          obtain ⟨x, rfl⟩ := h2.2
          simp [show bs "--" = [0x2d, 0x2d] from by decide]
        simp only [List.length_nil] at h2
        simp only
        split
        · exact tamed_ok _
        · exact tamed_bind (ih _ _ _ (by simp; omega)).1 (fun a _ => tamed_ok _)
    · intro ps e he
      obtain ⟨a, ha, he⟩ := res_bind_ok he
      cases a with
      | missing => cases he; simp
      | oops => cases he; simp
      | found p r =>
        have h2 := hn.2 p r ha
        have h3 := lineAfter_pos h2.2
        have hr : 0 < r.length := by
          obtain ⟨x, rfl⟩ := h2.2
          simp [show bs "--" = [0x2d, 0x2d] from by decide]
        simp only [List.length_nil] at h2
        simp only at he
        have hpart : ∀ q ∈ (if first = true then [] else [(rest ++ [0], p.length)] : List (Text × Nat)), q.2 < rest.length := by
          intro q hq
          split at hq
          · simp at hq
          · simp at hq; rw [hq]; simp only; omega
        split at he
        · cases he; exact hpart
        · obtain ⟨a, ha', he⟩ := res_bind_ok he
          obtain ⟨ps', e'⟩ := a
          cases he
          intro q hq
          rcases List.mem_append.1 hq with hq | hq
          · exact hpart q hq
          · have := (ih _ _ _ (by simp; omega)).2 _ _ ha' q hq
            simp only [List.length_drop] at this
            omega

/-! ## Headers -/

theorem copyHeader_ok (x : Text) : ∃ v, copyHeaderValue x = .ok v := by
  unfold copyHeaderValue
  split
  · exact ⟨_, rfl⟩
  · rename_i v _
    obtain ⟨d, -, h, -⟩ := C35_decode v
    exact ⟨_, by rw [h]; rfl⟩

theorem copyOrConcat_tamed (o : Option Text) (x : Text) : Tamed (copyOrConcat o x) := by
  unfold copyOrConcat
  refine tamed_bind (tamed_of_ok (copyHeader_ok x)) (fun a _ => ?_)
  split
  · exact tamed_ok _
  · exact tamed_ok _
  · exact tamed_oob

theorem atoi_tamed (s : Text) : Tamed (atoiDigits s) := by
  unfold atoiDigits
  simp only
  split
  · exact tamed_ok _
  · exact ⟨fun e h => by cases h; exact .inr rfl⟩

theorem date_tamed (mktime : Nat → Nat → Nat → Int) (x : Text) : Tamed (parseRfc822Date mktime x) := by
  unfold parseRfc822Date
  simp only
  split
  · exact tamed_ok _
  · refine tamed_bind (atoi_tamed _) (fun a _ => ?_)
    split
    · exact tamed_ok _
    · split
      · exact tamed_ok _
      · split
        · exact tamed_ok _
        · refine tamed_bind (atoi_tamed _) (fun a _ => ?_)
          split
          · exact tamed_ok _
          · exact tamed_ok _

theorem firstNvp_tamed (o : Option Nvp) (x n : Text) : Tamed (firstNvp o x n) := by
  unfold firstNvp
  split
  · exact tamed_ok _
  · exact tamed_of_ok (C52_safe _ _)

theorem scanRest_tamed (mktime : Nat → Nat → Nat → Int) (st : HeaderScan) (x : Text) : Tamed (scanRest mktime st x) := by
  unfold scanRest
  repeat' split
  · refine tamed_bind (tamed_of_ok (copyHeader_ok x)) (fun a _ => ?_)
    split
    · exact tamed_oob
    · exact tamed_bind (date_tamed ..) (fun a _ => tamed_ok _)
  · exact tamed_bind (tamed_of_ok (copyHeader_ok x)) (fun a _ => tamed_ok _)
  · exact tamed_bind (tamed_of_ok (copyHeader_ok x)) (fun a _ => tamed_ok _)
  · exact tamed_bind (tamed_of_ok (copyHeader_ok x)) (fun a _ => tamed_ok _)
  · exact tamed_ok _
  · exact tamed_ok _
  · exact tamed_ok _

theorem scanLine_tamed (mktime : Nat → Nat → Nat → Int) (st : HeaderScan) (x : Text) : Tamed (scanLine mktime st x) := by
  unfold scanLine
  split
  · exact tamed_bind (copyOrConcat_tamed ..) (fun a _ => tamed_ok _)
  split
  · exact tamed_bind (copyOrConcat_tamed ..) (fun a _ => tamed_ok _)
  split
  · exact tamed_bind (tamed_of_ok (copyHeader_ok x)) (fun a _ => tamed_ok _)
  split
  · exact tamed_bind (tamed_of_ok (copyHeader_ok x)) (fun a _ => tamed_ok _)
  refine tamed_bind (firstNvp_tamed ..) (fun a _ => ?_)
  split
  · exact tamed_ok _
  refine tamed_bind (firstNvp_tamed ..) (fun a _ => ?_)
  split
  · exact tamed_ok _
  refine tamed_bind (firstNvp_tamed ..) (fun a _ => ?_)
  split
  · exact tamed_ok _
  exact scanRest_tamed ..

theorem scanHeader_tamed (mktime : Nat → Nat → Nat → Int) : ∀ (xs : List Text) (st : HeaderScan), Tamed (scanHeader mktime st xs)
  | [], _ => tamed_ok _
  | x :: xs, st => tamed_bind (scanLine_tamed ..) (fun st' _ => scanHeader_tamed mktime xs st')

theorem scanPart_tamed : ∀ (xs : List Text) (st : HeaderScan), Tamed (scanPart st xs)
  | [], _ => tamed_ok _
  | x :: xs, st => by
    refine tamed_bind ?_ (fun st' _ => scanPart_tamed xs st')
    unfold scanPartLine
    refine tamed_bind (tamed_of_ok (C52_safe _ _)) (fun a _ => ?_)
    split
    · exact tamed_ok _
    refine tamed_bind (tamed_of_ok (C52_safe _ _)) (fun a _ => ?_)
    split
    · exact tamed_ok _
    refine tamed_bind (tamed_of_ok (C52_safe _ _)) (fun a _ => ?_)
    split
    · exact tamed_ok _
    · exact tamed_ok _

/-! ## All together -/

/-- The functions for what is inside are good for everything shorter than `n`. -/
def MimeTame (m : Mime) (n : Nat) : Prop := ∀ mem len, len < n → Tamed (m.message mem len) ∧ Tamed (m.part mem len)

theorem parts_tamed {m : Mime} {n : Nat} (h : MimeTame m n) : ∀ ps : List (Text × Nat), (∀ p ∈ ps, p.2 < n) → Tamed (m.parts ps)
  | [], _ => tamed_ok _
  | (mem, len) :: ps, hp => by
    refine tamed_bind (h mem len (hp (mem, len) (by simp))).2 (fun a _ => ?_)
    exact tamed_bind (parts_tamed h ps (fun p hp' => hp p (by simp [hp']))) (fun a _ => tamed_ok _)

theorem doUnipart_tamed {m : Mime} {n : Nat} (h : MimeTame m n) {d : Text} (hd : d.length < n) (ct : Nvp) (f : Option Text) : Tamed (doUnipart m d ct f) := by
  unfold doUnipart
  split
  · split
    · exact tamed_ok _
    · split
      · exact tamed_ok _
      · exact tamed_ok _
  · split
    · refine tamed_bind (h _ _ hd).1 (fun a _ => ?_)
      obtain ⟨r, e⟩ := a
      cases r with
      | none => exact tamed_ok _
      | some r => exact tamed_ok _
    · exact tamed_ok _

theorem doBody_tamed {m : Mime} {n : Nat} (h : MimeTame m n) (mem : Text) (len : Nat) (ct cte cd : Option Nvp) (hl : len < n) : Tamed (doBody m mem len ct cte cd) := by
  unfold doBody
  split
  · exact tamed_ok _
  · rename_i enc _
    have hu := unencode_tamed mem len enc
    refine tamed_bind hu.1 (fun d hd => ?_)
    have hdl := hu.2 d hd
    split
    · exact tamed_ok _
    · rename_i ct
      split
      · unfold doMultipart
        split
        · exact tamed_ok _
        · rename_i b _
          have hs := splitParts_tamed b (d.length + 1) true [] d (by omega)
          refine tamed_bind hs.1 (fun a ha => ?_)
          obtain ⟨ps, e⟩ := a
          exact tamed_bind (parts_tamed h ps (fun p hp => by have := hs.2 ps e ha p hp; omega)) (fun a _ => tamed_ok _)
      · exact doUnipart_tamed h (by omega) ct _

/-- A body without a type has nothing inside. -/
theorem doBody_untyped (m : Mime) (mem : Text) (len : Nat) (cte cd : Option Nvp) : Tamed (doBody m mem len none cte cd) := by
  unfold doBody
  split
  · exact tamed_ok _
  · exact tamed_bind (unencode_tamed _ _ _).1 (fun d _ => tamed_ok _)

theorem mime_tamed (mktime : Nat → Nat → Nat → Int) : ∀ n, MimeTame (mime mktime n) n := by
  intro n
  induction n with
  | zero => intro _ _ h; omega
  | succ n ih =>
    intro mem len hl
    obtain ⟨r, h1, h2⟩ := C36_safe (mem.take len)
    constructor
    · refine tamed_bind (tamed_of_ok ⟨r, h1⟩) (fun a ha => ?_)
      rw [h1] at ha
      cases ha
      cases r with
      | none => exact tamed_ok _
      | some fb =>
        obtain ⟨fields, body⟩ := fb
        obtain ⟨h3, h4⟩ := h2 fields body rfl
        refine tamed_bind (scanHeader_tamed ..) (fun st hst => ?_)
        have hle : (mem.take len).length ≤ len := by simp; omega
        rcases h4 with rfl | h4
        · cases hst
          exact tamed_bind (doBody_untyped ..) (fun a _ => tamed_ok _)
        · exact tamed_bind (doBody_tamed ih _ _ _ _ _ (by omega)) (fun a _ => tamed_ok _)
    · refine tamed_bind (tamed_of_ok ⟨r, h1⟩) (fun a ha => ?_)
      rw [h1] at ha
      cases ha
      cases r with
      | none => exact tamed_ok _
      | some fb =>
        obtain ⟨fields, body⟩ := fb
        obtain ⟨h3, h4⟩ := h2 fields body rfl
        refine tamed_bind (scanPart_tamed ..) (fun st hst => ?_)
        have hle : (mem.take len).length ≤ len := by simp; omega
        rcases h4 with rfl | h4
        · cases hst
          exact tamed_bind (doBody_untyped ..) (fun a _ => tamed_ok _)
        · exact tamed_bind (doBody_tamed ih _ _ _ _ _ (by omega)) (fun a _ => tamed_ok _)

end Mairix
