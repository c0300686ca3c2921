import Verif.Spec.Mapping
import Verif.Spec.Update
import Verif.Proofs.Bytes

/-!
# C58: files are read as they are, in whatever order
-/

namespace Mairix
open Spec

theorem ending_iff {e : Text} (name : Text) : hasEnding e name = true ↔ ∃ base ending, name = base ++ ending ∧ base ≠ [] ∧ lower ending = e := by
  have hlen : ∀ t : Text, (lower t).length = t.length := by intro t; simp [lower]
  simp only [hasEnding, Bool.and_eq_true, decide_eq_true_eq, beq_iff_eq]
  constructor
  · rintro ⟨h1, h2⟩
    refine ⟨name.take (name.length - e.length), name.drop (name.length - e.length), (List.take_append_drop _ _).symm, ?_, h2⟩
    intro h
    have := congrArg List.length h
    simp at this
    omega
  · rintro ⟨base, ending, rfl, h1, rfl⟩
    have hb : 0 < base.length := List.length_pos_iff.2 h1
    refine ⟨by simp [hlen, hb], ?_⟩
    congr 1
    rw [hlen, List.length_append, Nat.add_sub_cancel, List.drop_left]

theorem compressed_iff (name : Text) : isCompressed name = true ↔ Compressed name := by
  have h : isCompressed name = true ↔ hasEnding (bs ".gz") name = true ∨ hasEnding (bs ".bz2") name = true ∨ hasEnding (bs ".xz") name = true := by
    simp only [isCompressed, compressionType]
    by_cases h1 : hasEnding (bs ".gz") name = true
    · simp [h1]
    · by_cases h2 : hasEnding (bs ".bz2") name = true
      · simp [h1, h2]
      · by_cases h3 : hasEnding (bs ".xz") name = true <;> simp [h1, h2, h3]
  have hl : (["gz", "bz2", "xz"].map fun e => bs ("." ++ e)) = [bs ".gz", bs ".bz2", bs ".xz"] := by decide
  rw [h, ending_iff, ending_iff, ending_iff]
  simp only [Compressed, hl, List.mem_cons, List.not_mem_nil, or_false]
  constructor
  · rintro (⟨b, e, h1, h2, h3⟩ | ⟨b, e, h1, h2, h3⟩ | ⟨b, e, h1, h2, h3⟩)
    · exact ⟨b, e, h1, h2, .inl h3⟩
    · exact ⟨b, e, h1, h2, .inr (.inl h3)⟩
    · exact ⟨b, e, h1, h2, .inr (.inr h3)⟩
  · rintro ⟨b, e, h1, h2, h3 | h3 | h3⟩
    · exact .inl ⟨b, e, h1, h2, h3⟩
    · exact .inr (.inl ⟨b, e, h1, h2, h3⟩)
    · exact .inr (.inr ⟨b, e, h1, h2, h3⟩)

theorem inflateRest_gives {step : Nat} {rs : List ZRead} {t : Text} (h : Gives step rs t) (hs : 0 < step) : ∀ u, inflateRest step rs u = .ok (u ++ t) := by
  induction h with
  | nil => intro u; simp [inflateRest]
  | last h1 _ =>
    intro u
    have := List.length_pos_iff.2 h1
    simp only [inflateRest]
    rw [if_neg (by omega)]
  | more h1 _ ih =>
    intro u
    simp only [inflateRest]
    rw [if_neg (by omega), ih, List.append_assoc]

theorem inflateAll_gives {step : Nat} {rs : List ZRead} {t : Text} (h : Gives step rs t) (ht : t ≠ []) (hs : 0 < step) : inflateAll step rs = .ok (some t) := by
  cases h with
  | nil => exact absurd rfl ht
  | last h1 h2 =>
    have := List.length_pos_iff.2 h1
    simp only [inflateAll]
    rw [if_neg (by omega), if_neg (by omega)]
  | more h1 h2 =>
    simp only [inflateAll]
    rw [if_neg (by omega), if_pos (by omega), inflateRest_gives h2 hs]

/-- The state after the files `p`: the last compressed one is in the cache and mapped, and nothing else; if it is the very last one its mapping will not be freed. -/
inductive MapInv (step : Nat) (d : ZDisc) : List Text → MapState → Prop
  | none {p : List Text} {s : MapState} : (∀ n ∈ p, ¬ Compressed n) → s.cache = none → s.live = [] → MapInv step d p s
  | some {a b : List Text} {z t : Text} {n : Nat} {s : MapState} : Compressed z → (∀ n ∈ b, ¬ Compressed n) → Holds step d z t → s.cache = some (z, n, t.length) → s.live = [(n, t)] → (b = [] → s.alloc = .none) →
      MapInv step d (a ++ z :: b) s

theorem createPlain_eq (fresh : List Nat → Nat) (d : ZDisc) (s : MapState) (name : Text) : createPlain fresh d s name =
    match plainContents d name with
    | some t => (⟨(fresh (s.live.map (·.1)), t) :: s.live, .mmap, s.cache⟩, some (fresh (s.live.map (·.1)), t.length))
    | none => (s, none) := by
  unfold createPlain plainContents MapState.mmap
  cases hk : d.kind name with
  | none => simp
  | some k =>
    by_cases h1 : d.raw name = []
    · simp [h1]
    · by_cases h2 : k = .regular
      · cases h3 : d.opens name <;> simp [h1, h2, h3]
      · simp [h1, h2]

theorem map_step {fresh : List Nat → Nat} (hf : ∀ l, fresh l ∉ l) {step : Nat} (hstep : 0 < step) {d : ZDisc} {p : List Text} {s : MapState} {name : Text} {r : Option Text} (hi : MapInv step d p s)
    (hc : Contents step d name r) (ha : Apart (p ++ [name])) : ∃ s', useFile fresh step d s name = .ok (s', r) ∧ MapInv step d (p ++ [name]) s' := by
  rcases hc with ⟨hn, rfl⟩ | ⟨hn, t, ht, rfl⟩
  · -- a file as it is
    have hb : isCompressed name = false := by
      rw [← Bool.not_eq_true]; exact fun h => hn ((compressed_iff name).1 h)
    have key : createRo fresh step d s name = .ok (createPlain fresh d s name) := by
      unfold createRo
      rw [hb]
      cases hk : d.kind name with
      | none => simp [createPlain, hk]
      | some k => simp
    have hfin : ∀ s', s'.cache = s.cache → s'.live = s.live → MapInv step d (p ++ [name]) s' := by
      intro s' h1 h2
      cases hi with
      | none g1 g2 g3 => exact .none (by intro n h; rcases List.mem_append.1 h with h | h; exact g1 n h; rw [List.mem_singleton.1 h]; exact hn) (by rw [h1, g2]) (by rw [h2, g3])
      | some g1 g2 g3 g4 g5 g6 =>
        rw [List.append_assoc, List.cons_append]
        exact .some g1 (by intro n h; rcases List.mem_append.1 h with h | h; exact g2 n h; rw [List.mem_singleton.1 h]; exact hn) g3 (by rw [h1, g4]) (by rw [h2, g5]) (by simp)
    simp only [useFile, key, createPlain_eq, bind, Except.bind]
    cases hp : plainContents d name with
    | none => exact ⟨s, rfl, hfin s rfl rfl⟩
    | some t =>
      have hnew := hf (s.live.map (·.1))
      have hfil : (((fresh (s.live.map (·.1)), t) :: s.live).filter fun x => x.1 ≠ fresh (s.live.map (·.1))) = s.live := by
        simp only [ne_eq, decide_not, decide_true, Bool.not_true, List.filter_cons, Bool.false_eq_true, if_false]
        rw [List.filter_eq_self]
        intro x hx
        have : x.1 ≠ fresh (s.live.map (·.1)) := fun e => hnew (e ▸ List.mem_map_of_mem hx)
        simpa using this
      refine ⟨⟨s.live, .mmap, s.cache⟩, ?_, hfin _ rfl rfl⟩
      simp only [MapState.read, List.find?_cons, beq_self_eq_true, Nat.le_refl, if_true, List.take_length, freeRo, MapState.munmap, hfil]
  · -- a compressed file
    obtain ⟨k1, k2, k3, k4, k5, k6⟩ := id ht
    have hb : isCompressed name = true := (compressed_iff name).2 hn
    by_cases hhit : ∃ a b, p = a ++ name :: b ∧ ∀ n ∈ b, ¬ Compressed n
    · -- the one in the cache
      cases hi with
      | none g1 _ _ =>
        obtain ⟨a, b, rfl, -⟩ := hhit
        exact absurd hn (g1 name (by simp))
      | @some a b z t' n s g1 g2 g3 g4 g5 g6 =>
        obtain ⟨a', b', e, h'⟩ := hhit
        have hz : z = name := by
          have e1 := congrArg (fun l => l.reverse.find? isCompressed) e
          simp only [List.reverse_append, List.reverse_cons, List.append_assoc, List.find?_append] at e1
          have hnone : ∀ l : List Text, (∀ n ∈ l, ¬ Compressed n) → l.reverse.find? isCompressed = none := by
            intro l hl
            rw [List.find?_eq_none]
            intro x hx hc
            exact hl x (List.mem_reverse.1 hx) ((compressed_iff x).1 hc)
          rw [hnone b g2, hnone b' h'] at e1
          simpa [List.find?_cons, (compressed_iff z).2 g1, hb] using e1
        subst hz
        have hbe : b = [] := ha a z b [] (by simp) g1 g2
        subst hbe
        have htt : t' = t := by
          have := inflateAll_gives g3.2.2.2.2.1 g3.2.2.2.2.2 hstep
          rw [inflateAll_gives k5 k6 hstep] at this
          simpa using this.symm
        subst htt
        refine ⟨s, ?_, ?_⟩
        · simp only [useFile, createRo, k1, hb, findRo, g4, bind, Except.bind, MapState.read, g5, List.find?_cons, beq_self_eq_true, freeRo, g6 rfl, Option.isNone_some, Bool.false_eq_true, if_false, if_true, Nat.le_refl, List.take_length]
        · exact .some (b := []) g1 (by simp) g3 g4 g5 g6
    · -- another one
      have hcache : findRo s name = none := by
        unfold findRo
        cases hi with
        | none _ g2 _ => rw [g2]
        | @some a b z t' n s g1 g2 g3 g4 g5 g6 =>
          rw [g4]
          simp only
          rw [if_neg]
          rintro rfl
          exact hhit ⟨a, b, rfl, g2⟩
      -- opening and closing leaves the mappings alone
      have hz : ∃ s1 z al, zopen fresh d s name = (s1, some z) ∧ zclose s1 z = ⟨s.live, al, s.cache⟩ := by
        unfold zopen
        have hpc : plainContents d name = some (d.raw name) := by simp [plainContents, k1, k2, k3]
        have hnew := hf (s.live.map (·.1))
        have hfil : (((fresh (s.live.map (·.1)), d.raw name) :: s.live).filter fun x => x.1 ≠ fresh (s.live.map (·.1))) = s.live := by
          simp only [ne_eq, decide_not, decide_true, Bool.not_true, List.filter_cons, Bool.false_eq_true, if_false]
          rw [List.filter_eq_self]
          intro x hx
          have : x.1 ≠ fresh (s.live.map (·.1)) := fun e => hnew (e ▸ List.mem_map_of_mem hx)
          simpa using this
        cases hct : compressionType name with
        | none => simp [isCompressed, hct] at hb
        | xz => exact ⟨_, _, .mmap, by rw [createPlain_eq, hpc], by simp only [zclose, freeRo, MapState.munmap, hfil]⟩
        | gzip => exact ⟨s, none, s.alloc, by simp only [k4, if_true], rfl⟩
        | bzip => exact ⟨s, none, s.alloc, by simp only [k4, if_true], rfl⟩
      obtain ⟨s1, z, al, e1, e2⟩ := hz
      have hlive : ∀ c a l, s.cache = some (c, a, l) → s.live.filter (fun x => x.1 ≠ a) = [] := by
        intro c a l h
        cases hi with
        | none _ g2 _ => rw [g2] at h; cases h
        | some _ _ _ g4 g5 _ =>
          rw [g4] at h
          cases h
          rw [g5]
          simp
      have hnolive : s.cache = none → s.live = [] := by
        intro h
        cases hi with
        | none _ _ g3 => exact g3
        | some _ _ _ g4 _ _ => rw [g4] at h; cases h
      refine ⟨⟨[(fresh [], t)], .none, some (name, fresh [], t.length)⟩, ?_, .some (b := []) hn (by simp) ht rfl rfl (fun _ => rfl)⟩
      have hadd : addRo fresh ⟨s.live, .none, s.cache⟩ name t = (⟨[(fresh [], t)], .none, some (name, fresh [], t.length)⟩, fresh [], t.length) := by
        unfold addRo
        cases hcc : s.cache with
        | none => simp [MapState.mmap, hnolive hcc]
        | some x =>
          obtain ⟨c, a, l⟩ := x
          simp only [MapState.munmap, hlive _ _ _ hcc, MapState.mmap, List.map_nil]
      simp only [useFile, createRo, k1, hb, hcache, e1, inflateAll_gives k5 k6 hstep, e2, hadd, bind, Except.bind, MapState.read, List.find?_cons, beq_self_eq_true, freeRo, Option.isNone_some, Bool.false_eq_true,
        if_false, if_true, Nat.le_refl, List.take_length]

theorem maps_step {fresh : List Nat → Nat} (hf : ∀ l, fresh l ∉ l) {step : Nat} (hstep : 0 < step) {d : ZDisc} : ∀ (ns : List Text) (rs : List (Option Text)) {p : List Text} {s : MapState}, MapInv step d p s →
    Pairs (Contents step d) ns rs → Apart (p ++ ns) → ∃ s', useFiles fresh step d s ns = .ok (s', rs) ∧ MapInv step d (p ++ ns) s'
  | [], _, p, s, hi, .nil, _ => ⟨s, rfl, by simpa using hi⟩
  | n :: ns, r :: rs, p, s, hi, .cons h1 h2, ha => by
    have ha1 : Apart (p ++ [n]) := by
      intro a z b c e hz hb
      exact ha a z b (c ++ ns) (by rw [show p ++ n :: ns = p ++ [n] ++ ns by simp, e]; simp) hz hb
    obtain ⟨s1, e1, hi1⟩ := map_step hf hstep hi h1 ha1
    obtain ⟨s2, e2, hi2⟩ := maps_step hf hstep ns rs hi1 h2 (by simpa using ha)
    refine ⟨s2, ?_, by simpa using hi2⟩
    simp only [useFiles, e1, e2, bind, Except.bind]

/-- **C58 (partial).** Whatever files the program reads, one after the other and any of them any number of times, it gets what they hold – decompressed if they are compressed – if the compressed ones are in order, and no compressed
file is read again after others that are not compressed. In particular if all are compressed or none is. -/
theorem C58_files_partial {fresh : List Nat → Nat} (hf : ∀ l, fresh l ∉ l) {step : Nat} (hstep : 0 < step) {d : ZDisc} {names : List Text} {rs : List (Option Text)} (h : Pairs (Contents step d) names rs) (ha : Apart names) :
    ∃ s, useFiles fresh step d .init names = .ok (s, rs) := by
  obtain ⟨s, h1, _⟩ := maps_step hf hstep names rs (p := []) (s := .init) (.none (by simp) rfl rfl) h (by simpa using ha)
  exact ⟨s, h1⟩

theorem apart_same {names : List Text} (h : (∀ n ∈ names, Compressed n) ∨ ∀ n ∈ names, ¬ Compressed n) : Apart names := by
  rintro a z b c rfl hz hb
  rcases h with h | h
  · cases b with
    | nil => rfl
    | cons x b => exact absurd (h x (by simp)) (hb x (by simp))
  · exact absurd hz (h z (by simp))

/-- Whether some compressed file comes twice with only others in between. -/
def apartCheck (names : List Text) : Bool :=
  (List.range names.length).all fun i => (List.range names.length).all fun j =>
    !(decide (i + 1 < j) && names[i]? == names[j]? && (names[i]?).any isCompressed) || (List.range j).any (fun k => decide (i < k) && (names[k]?).any isCompressed)

theorem apart_of_check {names : List Text} (h : apartCheck names = true) : Apart names := by
  simp only [apartCheck, List.all_eq_true, List.mem_range, Bool.or_eq_true, Bool.not_eq_true', Bool.and_eq_false_imp, Bool.and_eq_true, decide_eq_true_eq, beq_iff_eq] at h
  rintro a z b c rfl hz hb
  cases hbe : b with
  | nil => rfl
  | cons x b' =>
    have hlen : 0 < b.length := by rw [hbe]; simp
    have e1 : (a ++ z :: b ++ z :: c)[a.length]? = some z := by simp
    have e2 : (a ++ z :: b ++ z :: c)[a.length + (b.length + 1)]? = some z := by
      rw [List.getElem?_append_right (by simp)]; simp
    have := h a.length (by simp) (a.length + (b.length + 1)) (by simp)
    have hany : ((a ++ z :: b ++ z :: c)[a.length]?).any isCompressed = true := by rw [e1]; simpa using (compressed_iff z).2 hz
    have := this.resolve_left (fun g => by
      have := g ⟨by omega, by rw [e1, e2]⟩
      rw [hany] at this
      cases this)
    simp only [List.any_eq_true, List.mem_range, Bool.and_eq_true, decide_eq_true_eq] at this
    obtain ⟨k, h1, h2, h3⟩ := this
    have e3 : (a ++ z :: b ++ z :: c)[k]? = b[k - a.length - 1]? := by
      rw [List.getElem?_append_left (by simp; omega), List.getElem?_append_right (by omega)]
      obtain ⟨m, hm⟩ : ∃ m, k - a.length = m + 1 := ⟨k - a.length - 1, by omega⟩
      rw [hm, List.getElem?_cons_succ, Nat.add_sub_cancel]
    rw [e3] at h3
    cases hk : b[k - a.length - 1]? with
    | none => rw [hk] at h3; simp at h3
    | some y =>
      rw [hk] at h3
      exact absurd ((compressed_iff y).1 (by simpa using h3)) (hb y (List.mem_of_getElem? hk))

/-! An example: an mbox that is compressed, and a message in a file of its own. -/

def exZDisc : ZDisc where
  kind p := if p = bs "/m.gz" ∨ p = bs "/n.XZ" ∨ p = bs "/d/1" then some .regular else none
  raw p := if p = bs "/d/1" then bs "Subject: hi\n" else bs "zzz"
  opens _ := true
  inflates _ := true
  reads p := if p = bs "/m.gz" then [.data (bs "From"), .data (bs " x\n")] else [.data (bs "F")]

def exFresh (l : List Nat) : Nat := l.sum + 1

theorem exFresh_ok : ∀ l, exFresh l ∉ l := by
  intro l h
  have : ∀ l : List Nat, ∀ x ∈ l, x ≤ l.sum := by
    intro l
    induction l with
    | nil => simp
    | cons a l ih =>
      intro x hx
      rw [List.sum_cons]
      rcases List.mem_cons.1 hx with rfl | hx
      · omega
      · have := ih x hx; omega
  have := this l _ h
  unfold exFresh at this
  omega

theorem exZ_contents : Contents 4 exZDisc (bs "/m.gz") (some (bs "From x\n")) ∧ Contents 4 exZDisc (bs "/n.XZ") (some (bs "F")) ∧ Contents 4 exZDisc (bs "/d/1") (some (bs "Subject: hi\n")) := by
  refine ⟨.inr ⟨(compressed_iff _).1 (by decide), _, ⟨by decide, rfl, by decide, rfl, ?_, by decide⟩, rfl⟩, .inr ⟨(compressed_iff _).1 (by decide), _, ⟨by decide, rfl, by decide, rfl, ?_, by decide⟩, rfl⟩,
    .inl ⟨fun h => absurd ((compressed_iff _).2 h) (by decide), by decide⟩⟩
  · have : exZDisc.reads (bs "/m.gz") = [.data (bs "From"), .data (bs " x\n")] := by decide
    rw [this]
    exact .more (u := bs "From") (t := bs " x\n") (by decide) (.last (by decide) (by decide))
  · have : exZDisc.reads (bs "/n.XZ") = [.data (bs "F")] := by decide
    rw [this]
    exact .last (by decide) (by decide)

/-- The hypotheses of `C58_files_partial` are met by four files, one of them read twice. -/
example : ∃ s, useFiles exFresh 4 exZDisc .init [bs "/d/1", bs "/m.gz", bs "/m.gz", bs "/n.XZ", bs "/d/1"] =
    .ok (s, [some (bs "Subject: hi\n"), some (bs "From x\n"), some (bs "From x\n"), some (bs "F"), some (bs "Subject: hi\n")]) := by
  obtain ⟨h1, h2, h3⟩ := exZ_contents
  refine C58_files_partial exFresh_ok (by decide) (.cons h3 (.cons h1 (.cons h1 (.cons h2 (.cons h3 .nil))))) (apart_of_check (by decide))

/-- **C58 is false**: a compressed mbox, a file that is not compressed, and the mbox twice again (as for three results of a search in mbox format from these): the mapping in the cache is freed after the second reading, the third one
reads memory that is not there. -/
theorem C58_cache_violation : ∃ d step names rs, Pairs (Contents step d) names rs ∧ ∀ fresh, (∀ l, fresh l ∉ l) → useFiles fresh step d .init names = .error .outOfBounds := by
  obtain ⟨h1, h2, h3⟩ := exZ_contents
  refine ⟨exZDisc, 4, [bs "/m.gz", bs "/d/1", bs "/m.gz", bs "/m.gz"], _, .cons h1 (.cons h3 (.cons h1 (.cons h1 .nil))), ?_⟩
  intro fresh hf
  have hne : fresh [fresh []] ≠ fresh [] := fun h => hf [fresh []] (by rw [h]; simp)
  have k1 : exZDisc.kind (bs "/m.gz") = some .regular := by decide
  have k2 : exZDisc.kind (bs "/d/1") = some .regular := by decide
  have k3 : isCompressed (bs "/m.gz") = true := by decide
  have k4 : isCompressed (bs "/d/1") = false := by decide
  have k5 : compressionType (bs "/m.gz") = .gzip := by decide
  have k6 : inflateAll 4 (exZDisc.reads (bs "/m.gz")) = .ok (some (bs "From x\n")) := by decide
  have k7 : plainContents exZDisc (bs "/d/1") = some (bs "Subject: hi\n") := by decide
  have k8 : exZDisc.inflates (bs "/m.gz") = true := rfl
  simp [useFiles, useFile, createRo, k1, k2, k3, k4, k5, k6, k7, k8, createPlain_eq, findRo, zopen, zclose, addRo, MapState.init, MapState.mmap, MapState.munmap, MapState.read, freeRo, bind, Except.bind, hne, Ne.symm hne]

/-- **C58** is false of compressed files that are damaged: an error while reading counts as the largest number of bytes. -/
theorem C58_damaged_violation (fresh : List Nat → Nat) (step : Nat) (d : ZDisc) (name : Text) (hk : d.kind name = some .regular) (hc : Compressed name) (hx : compressionType name = .gzip) (hi : d.inflates name = true)
    (hr : ∃ rs, d.reads name = .error :: rs) : useFiles fresh step d .init [name] = .error .outOfBounds := by
  obtain ⟨rs, hr⟩ := hr
  simp [useFiles, useFile, createRo, hk, (compressed_iff name).2 hc, findRo, MapState.init, zopen, hx, hi, hr, inflateAll, bind, Except.bind]

end Mairix
