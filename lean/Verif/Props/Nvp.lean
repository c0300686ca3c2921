import Verif.Proofs.NvpSafe

/-!
# C52: types, encodings and parameters of parts are read from headers
-/

namespace Mairix
open Spec

/-- A header of the specified form gives the entries it stands for. -/
theorem C52_parse_partial (pfx pfx' t : Text) (es : Nvp) (hp : lower pfx = lower pfx') (h : Params t [] es) : makeNvp (pfx' ++ t) pfx = .ok (some es) := by
  have hl : pfx.length = pfx'.length := by simpa [lower] using congrArg List.length hp
  have h1 : hasPrefixCase pfx (pfx' ++ t) = true := by simp [hasPrefixCase, hl, hp]
  rw [makeNvp, if_pos h1, hl, List.drop_left]
  exact params_loop h (.inl rfl)

/-- A multipart header with a boundary in quotes, and a blank at the end. -/
theorem nvp_example : Params (bs " multipart/mixed; boundary=\"a b;c\" ; x=y; title*0*=utf-8''%41b; title*1=\" c\" ") []
    [.majorMinor (bs "multipart") (bs "mixed"), .nameValue (bs "boundary") (bs "a b;c"), .nameValue (bs "x") (bs "y"), .nameValue (bs "title") (bs "Ab c")] := by
  have w1 : ∀ t : Text, (t = [] ∨ t = bs " ") → White t := by rintro t (rfl | rfl) <;> simp [White, show bs " " = [0x20] from by decide]
  have pc : ∀ t : Text, t.all (fun c => isAlnum c || c = 0x2d || c = 0x5f) = true → t ≠ [] → Of ParamChar t := by
    intro t h hn
    refine ⟨hn, fun c hc => ?_⟩
    have := List.all_eq_true.1 h c hc
    simpa [ParamChar, or_assoc] using this
  have vc : ∀ t : Text, t.all (fun c => 0x21 ≤ c && c ≤ 0x7e && c ≠ 0x5c && c ≠ 0x22 && c ≠ 0x3b) = true → t ≠ [] → Of ValueChar t := by
    intro t h hn
    refine ⟨hn, fun c hc => ?_⟩
    have := List.all_eq_true.1 h c hc
    simpa [ValueChar, and_assoc] using this
  have qc : ∀ t : Text, t.all (fun c => 0x21 ≤ c && c ≤ 0x7e && c ≠ 0x5c && c ≠ 0x22 && c ≠ 0x3b || c = 0x20 || c = 0x09 || c = 0x3b) = true → t ≠ [] → Of QuotedChar t := by
    intro t h hn
    refine ⟨hn, fun c hc => ?_⟩
    have := List.all_eq_true.1 h c hc
    simpa [QuotedChar, ValueChar, and_assoc, or_assoc] using this
  have e1 : bs " multipart/mixed; boundary=\"a b;c\" ; x=y; title*0*=utf-8''%41b; title*1=\" c\" " =
      bs " " ++ (bs "multipart" ++ bs "/" ++ bs "mixed") ++ [] ++ bs ";" ++ (bs " " ++ (bs "boundary" ++ bs "=" ++ [] ++ bs "\"" ++ bs "a b;c" ++ bs "\"") ++ bs " " ++ bs ";" ++
      (bs " " ++ (bs "x" ++ bs "=" ++ [] ++ bs "y") ++ [] ++ bs ";" ++ (bs " " ++ (bs "title" ++ bs "*" ++ bs "0*" ++ [] ++ bs "=" ++ [] ++ bs "utf-8" ++ bs "''" ++ bs "%41b") ++ [] ++ bs ";" ++
      (bs " " ++ (bs "title" ++ bs "*" ++ bs "1" ++ [] ++ bs "=" ++ [] ++ bs "\"" ++ bs " c" ++ bs "\"") ++ bs " ")))) := by decide +kernel
  rw [e1]
  refine .more (w1 _ (.inr rfl)) (.type (pc _ (by decide +kernel) (by decide +kernel)) ⟨by decide +kernel, fun c hc => .inl ((pc (bs "mixed") (by decide +kernel) (by decide +kernel)).2 c hc)⟩) (w1 _ (.inl rfl)) ?_
  refine .more (w1 _ (.inr rfl)) (.quoted (.one (pc _ (by decide +kernel) (by decide +kernel))) (w1 _ (.inl rfl)) (qc _ (by decide +kernel) (by decide +kernel))) (w1 _ (.inr rfl)) ?_
  refine .more (w1 _ (.inr rfl)) (.plain (.one (pc _ (by decide +kernel) (by decide +kernel))) (w1 _ (.inl rfl)) (vc _ (by decide +kernel) (by decide +kernel))) (w1 _ (.inl rfl)) ?_
  refine .more (w1 _ (.inr rfl)) (.charset (d := bs "Ab") (.one (pc _ (by decide +kernel) (by decide +kernel))) (.inr rfl) (w1 _ (.inl rfl)) (w1 _ (.inl rfl))
    (fun c hc => .inl ((pc (bs "utf-8") (by decide +kernel) (by decide +kernel)).2 c hc)) (vc _ (by decide +kernel) (by decide +kernel))
    (.hex (x := 4) (y := 1) (by decide +kernel) (by decide +kernel) (.plain (by decide) .nil)) (by decide +kernel) (.new (by simp [show bs "title" ≠ bs "boundary" from by decide +kernel, show bs "title" ≠ bs "x" from by decide +kernel]))) (w1 _ (.inl rfl)) ?_
  exact .last (w1 _ (.inr rfl)) (.contQuoted (.one (pc _ (by decide +kernel) (by decide +kernel))) ⟨by decide +kernel, by decide +kernel⟩ (w1 _ (.inl rfl)) (w1 _ (.inl rfl)) (qc _ (by decide +kernel) (by decide +kernel))
    (.old (a := [.majorMinor (bs "multipart") (bs "mixed"), .nameValue (bs "boundary") (bs "a b;c"), .nameValue (bs "x") (bs "y")]) (b := []) (by simp [show bs "title" ≠ bs "boundary" from by decide +kernel, show bs "title" ≠ bs "x" from by decide +kernel]))) (w1 _ (.inr rfl))

example : makeNvp (bs "Content-Type:" ++ bs " multipart/mixed; boundary=\"a b;c\" ; x=y; title*0*=utf-8''%41b; title*1=\" c\" ") (bs "content-type:") =
    .ok (some [.majorMinor (bs "multipart") (bs "mixed"), .nameValue (bs "boundary") (bs "a b;c"), .nameValue (bs "x") (bs "y"), .nameValue (bs "title") (bs "Ab c")]) :=
  C52_parse_partial (bs "content-type:") (bs "Content-Type:") _ _ (by decide +kernel) nvp_example

/-- Whatever the header, reading it never goes wrong. -/
theorem C52_safe (s pfx : Text) : ∃ o, makeNvp s pfx = .ok o := by
  unfold makeNvp
  split
  · exact loop_ok _ start_inv
  · exact ⟨_, rfl⟩

/-- The lookup finds the value of the first parameter of that name, letters compared without regard to case. -/
theorem C52_lookup (n v : Text) (es : Nvp) : nvpLookupCase n es = some v ↔
    ∃ a m b, es = a ++ .nameValue m v :: b ∧ lower m = lower n ∧ ∀ m' v', .nameValue m' v' ∈ a → lower m' ≠ lower n := by
  constructor
  · intro h
    induction es with
    | nil => simp [nvpLookupCase] at h
    | cons e es ih =>
      have rec' : nvpLookupCase n es = some v → (∀ m' v', e = .nameValue m' v' → lower m' ≠ lower n) →
          ∃ a m b, e :: es = a ++ .nameValue m v :: b ∧ lower m = lower n ∧ ∀ m' v', .nameValue m' v' ∈ a → lower m' ≠ lower n := by
        intro h he
        obtain ⟨a, m, b, h1, h2, h3⟩ := ih h
        refine ⟨e :: a, m, b, by rw [h1]; rfl, h2, fun m' v' hm => ?_⟩
        rcases List.mem_cons.1 hm with hm | hm
        · exact he m' v' hm.symm
        · exact h3 m' v' hm
      cases e with
      | nameValue l r =>
        simp only [nvpLookupCase] at h
        split at h
        · rename_i hl
          cases h
          exact ⟨[], l, es, rfl, hl, by simp⟩
        · rename_i hl
          refine rec' h ?_
          rintro m' v' he
          cases he
          exact hl
      | name l => exact rec' (by simpa [nvpLookupCase] using h) (by simp)
      | majorMinor l r => exact rec' (by simpa [nvpLookupCase] using h) (by simp)
  · rintro ⟨a, m, b, rfl, hm, ha⟩
    induction a with
    | nil => simp [nvpLookupCase, hm]
    | cons e a ih =>
      have h1 := ih (fun m' v' h => ha m' v' (by simp [h]))
      cases e with
      | nameValue l r =>
        have := ha l r (by simp)
        simp [nvpLookupCase, this, h1]
      | name l => simpa [nvpLookupCase] using h1
      | majorMinor l r => simpa [nvpLookupCase] using h1

example : nvpLookupCase (bs "boundary") [.majorMinor (bs "multipart") (bs "mixed"), .nameValue (bs "Boundary") (bs "xyz")] = some (bs "xyz") :=
  (C52_lookup _ _ _).2 ⟨[.majorMinor (bs "multipart") (bs "mixed")], bs "Boundary", [], rfl, by decide +kernel, by simp⟩

/-- White space between the name of a parameter and the `=` (allowed by RFC 822) becomes part of the name: the boundary is not found. -/
theorem C52_space_violation : ∃ es, makeNvp (bs "content-type: multipart/mixed; boundary = xyz") (bs "content-type:") = .ok (some es) ∧ nvpLookupCase (bs "boundary") es = none :=
  ⟨[.majorMinor (bs "multipart") (bs "mixed"), .nameValue (bs "boundary ") (bs "xyz")], by decide +kernel, by decide +kernel⟩

/-- Of a value in quotes with escapes only what follows the last escaped character's backslash is kept. -/
theorem C52_escape_violation : ∃ es, makeNvp (bs "content-disposition: attachment; filename=\"my \\\"best\\\" file\"") (bs "content-disposition:") = .ok (some es) ∧ nvpLookupCase (bs "filename") es ≠ some (bs "my \"best\" file") :=
  ⟨[.name (bs "attachment"), .nameValue (bs "filename") (bs "\" file")], by decide +kernel, by decide +kernel⟩

/-- A header with an empty value in quotes is not read at all. -/
theorem C52_empty_violation : makeNvp (bs "content-type: text/html; name=\"\"") (bs "content-type:") = .ok none := by decide +kernel

end Mairix
