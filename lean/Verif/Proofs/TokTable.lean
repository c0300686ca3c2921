import Verif.Model.TokTable
import Verif.Proofs.Encoding

/-! Lemmas about the open addressing token table. -/

namespace Mairix

variable {α : Type}

/-- The entries of a table, in bucket order. -/
def ents (slots : List (Option (Entry α))) : List (Entry α) := slots.filterMap id

theorem ents_append (a b : List (Option (Entry α))) : ents (a ++ b) = ents a ++ ents b := by
  simp [ents]

theorem ents_cons_some (e : Entry α) (b : List (Option (Entry α))) :
    ents (some e :: b) = e :: ents b := by simp [ents]

theorem ents_cons_none (b : List (Option (Entry α))) : ents (none :: b) = ents b := by simp [ents]

theorem ents_replicate (n : Nat) : ents (List.replicate n (none : Option (Entry α))) = [] := by
  induction n with
  | zero => rfl
  | succ n ih => rw [List.replicate_succ, ents_cons_none, ih]

theorem mem_ents {slots : List (Option (Entry α))} {e : Entry α} :
    e ∈ ents slots ↔ ∃ i : Nat, slots[i]? = some (some e) := by
  simp only [ents, List.mem_filterMap, id_eq, exists_eq_right]
  exact List.mem_iff_getElem?

theorem split_at {slots : List (Option (Entry α))} {i : Nat} {x : Option (Entry α)}
    (h : slots[i]? = some x) :
    ∃ a b, slots = a ++ x :: b ∧ a.length = i ∧ ∀ y, slots.set i y = a ++ y :: b := by
  obtain ⟨hi, hx⟩ := List.getElem?_eq_some_iff.mp h
  refine ⟨slots.take i, slots.drop (i + 1), ?_, by simp; omega, fun y => ?_⟩
  · rw [← hx]; simp
  · rw [List.set_eq_take_append_cons_drop, if_pos hi]

/-- Bucket `i` is in use. -/
def Occ (slots : List (Option (Entry α))) (i : Nat) : Prop := ∃ e, slots[i]? = some (some e)

/-- Bucket `i` can be reached from hash value `h` without crossing a free bucket. -/
def Reach (slots : List (Option (Entry α))) (h i : Nat) : Prop :=
  ∃ d, (h + d) % slots.length = i ∧ ∀ d' < d, Occ slots ((h + d') % slots.length)

structure TInv (hash : Text → Nat) (slots : List (Option (Entry α))) : Prop where
  pow : ∃ k, slots.length = 2 ^ k
  hashed : ∀ e ∈ ents slots, e.hashval = hash e.text
  reach : ∀ i e, slots[i]? = some (some e) → Reach slots e.hashval i
  nodup : ((ents slots).map Entry.text).Nodup
  room : (ents slots).length < slots.length

theorem mask_eq {slots : List (Option (Entry α))} (h : ∃ k, slots.length = 2 ^ k) (x : Nat) :
    x &&& (slots.length - 1) = x % slots.length := by
  obtain ⟨k, hk⟩ := h
  rw [hk, Nat.and_two_pow_sub_one_eq_mod]

theorem nextIndex_eq {slots : List (Option (Entry α))} (h : ∃ k, slots.length = 2 ^ k) (x d : Nat) :
    nextIndex slots.length ((x + d) % slots.length) = (x + (d + 1)) % slots.length := by
  unfold nextIndex
  rw [mask_eq h, Nat.mod_add_mod, Nat.add_assoc]

theorem exists_free {slots : List (Option (Entry α))} (h : (ents slots).length < slots.length) :
    ∃ i : Nat, slots[i]? = some none := by
  induction slots with
  | nil => simp at h
  | cons o os ih =>
    cases o with
    | none => exact ⟨0, rfl⟩
    | some e =>
      rw [ents_cons_some] at h
      obtain ⟨i, hi⟩ := ih (by simpa using h)
      exact ⟨i + 1, by simpa using hi⟩

theorem exists_dist {n : Nat} (hn : 0 < n) (h i : Nat) (hi : i < n) : ∃ d < n, (h + d) % n = i := by
  refine ⟨(i + (n - h % n)) % n, Nat.mod_lt _ hn, ?_⟩
  have h1 : h % n < n := Nat.mod_lt _ hn
  have h2 : (h + (i + (n - h % n)) % n) % n = (h % n + (i + (n - h % n))) % n := by
    simp [Nat.add_mod]
  rw [h2, show h % n + (i + (n - h % n)) = i + n by omega, Nat.add_mod_right, Nat.mod_eq_of_lt hi]

theorem least_nat (p : Nat → Prop) (h : ∃ n, p n) : ∃ n, p n ∧ ∀ m < n, ¬ p m := by
  obtain ⟨n, hn⟩ := h
  induction n using Nat.strongRecOn with
  | ind n ih =>
    by_cases hm : ∃ m, m < n ∧ p m
    · obtain ⟨m, hmn, hpm⟩ := hm
      exact ih m hmn hpm
    · exact ⟨n, hn, fun m hmn hpm => hm ⟨m, hmn, hpm⟩⟩

theorem getElem?_mod {slots : List (Option (Entry α))} (hpos : 0 < slots.length) (x : Nat) :
    slots[x % slots.length]? = some none ∨ Occ slots (x % slots.length) := by
  have hlt := Nat.mod_lt x hpos
  cases hv : slots[x % slots.length]? with
  | none => rw [List.getElem?_eq_none_iff] at hv; omega
  | some o =>
    cases o with
    | none => exact Or.inl rfl
    | some e => exact Or.inr ⟨e, hv⟩

/-- The first free bucket from a starting point. -/
theorem first_free {slots : List (Option (Entry α))} (hroom : (ents slots).length < slots.length)
    (h : Nat) : ∃ d < slots.length, slots[(h + d) % slots.length]? = some none ∧
      ∀ d' < d, Occ slots ((h + d') % slots.length) := by
  obtain ⟨f, hf⟩ := exists_free hroom
  have hflt : f < slots.length := by
    rcases Nat.lt_or_ge f slots.length with h | h
    · exact h
    · rw [List.getElem?_eq_none h] at hf; cases hf
  have hpos : 0 < slots.length := by omega
  obtain ⟨d0, hd0, hd0f⟩ := exists_dist hpos h f hflt
  obtain ⟨d, hd, hmin⟩ := least_nat (fun d => slots[(h + d) % slots.length]? = some none)
    ⟨d0, by rw [hd0f]; exact hf⟩
  refine ⟨d, ?_, hd, fun d' hd' => ?_⟩
  · rcases Nat.lt_or_ge d slots.length with h' | h'
    · exact h'
    · exact absurd (by rw [hd0f]; exact hf) (hmin d0 (by omega))
  · rcases getElem?_mod hpos (h + d') with h1 | h1
    · exact absurd h1 (hmin d' hd')
    · exact h1

theorem probeFree_spec {slots : List (Option (Entry α))} (hp : ∃ k, slots.length = 2 ^ k) (h : Nat) :
    ∀ (fuel d d0 : Nat), d0 ≤ d → d < d0 + fuel → slots[(h + d) % slots.length]? = some none →
      (∀ d' < d, Occ slots ((h + d') % slots.length)) →
      probeFree slots fuel ((h + d0) % slots.length) = .ok ((h + d) % slots.length) := by
  intro fuel
  induction fuel with
  | zero => intro d d0 h1 h2; omega
  | succ fuel ih =>
    intro d d0 h1 h2 hfree hocc
    simp only [probeFree]
    rcases Nat.eq_or_lt_of_le h1 with he | hlt
    · subst he; rw [hfree]
    · obtain ⟨e, he⟩ := hocc d0 hlt
      rw [he]
      simp only
      rw [nextIndex_eq hp]
      exact ih d (d0 + 1) (by omega) (by omega) hfree hocc

theorem probe_spec {slots : List (Option (Entry α))} (hp : ∃ k, slots.length = 2 ^ k) (text : Text)
    (h : Nat) : ∀ (fuel d d0 : Nat), d0 ≤ d → d < d0 + fuel →
      (slots[(h + d) % slots.length]? = some none ∨
        ∃ e, slots[(h + d) % slots.length]? = some (some e) ∧ e.text = text) →
      (∀ d' < d, ∃ e, slots[(h + d') % slots.length]? = some (some e) ∧ e.text ≠ text) →
      probe slots text fuel ((h + d0) % slots.length) = .ok ((h + d) % slots.length) := by
  intro fuel
  induction fuel with
  | zero => intro d d0 h1 h2; omega
  | succ fuel ih =>
    intro d d0 h1 h2 hstop hocc
    simp only [probe]
    rcases Nat.eq_or_lt_of_le h1 with he | hlt
    · subst he
      rcases hstop with h | ⟨e, h, het⟩
      · rw [h]
      · rw [h]; simp [het]
    · obtain ⟨e, he, hne⟩ := hocc d0 hlt
      rw [he]
      simp only
      rw [if_neg (fun h => hne h.symm), nextIndex_eq hp]
      exact ih d (d0 + 1) (by omega) (by omega) hstop hocc

theorem probeNew_spec {slots : List (Option (Entry α))} (hp : ∃ k, slots.length = 2 ^ k) (text : Text)
    (h : Nat) (hnew : ∀ e ∈ ents slots, e.text ≠ text) : ∀ (fuel d0 : Nat),
      probeNew slots text fuel ((h + d0) % slots.length) =
        probeFree slots fuel ((h + d0) % slots.length) := by
  intro fuel
  induction fuel with
  | zero => intro d0; rfl
  | succ fuel ih =>
    intro d0
    simp only [probeNew, probeFree]
    cases hv : slots[(h + d0) % slots.length]? with
    | none => rfl
    | some o =>
      cases o with
      | none => rfl
      | some e =>
        simp only
        rw [if_neg (fun h => hnew e (mem_ents.mpr ⟨_, hv⟩) h.symm), nextIndex_eq hp, ih]

/-- Occupied buckets stay occupied when a bucket is filled. -/
theorem occ_set {slots : List (Option (Entry α))} {i j : Nat} {e : Entry α} (h : Occ slots j) :
    Occ (slots.set i (some e)) j := by
  obtain ⟨e', he'⟩ := h
  have hj : j < slots.length := (List.getElem?_eq_some_iff.mp he').1
  by_cases hij : i = j
  · subst hij; exact ⟨e, by simp [hj]⟩
  · exact ⟨e', by rw [List.getElem?_set_ne hij]; exact he'⟩

theorem reach_set {slots : List (Option (Entry α))} {i h k : Nat} {e : Entry α}
    (hr : Reach slots h k) : Reach (slots.set i (some e)) h k := by
  obtain ⟨d, h1, h2⟩ := hr
  exact ⟨d, by simpa using h1, fun d' hd' => by simpa using occ_set (h2 d' hd')⟩

/-- Filling a free bucket that is reachable from the entry's hash value. -/
theorem TInv.insert {hash : Text → Nat} {slots : List (Option (Entry α))} (hI : TInv hash slots)
    {i : Nat} {e : Entry α} (hfree : slots[i]? = some none) (hr : Reach slots e.hashval i)
    (hh : e.hashval = hash e.text) (hnew : ∀ e' ∈ ents slots, e'.text ≠ e.text)
    (hroom : (ents slots).length + 1 < slots.length) :
    TInv hash (slots.set i (some e)) ∧ (ents (slots.set i (some e))).Perm (e :: ents slots) := by
  obtain ⟨a, b, hs, hal, hset⟩ := split_at hfree
  have hperm : (ents (slots.set i (some e))).Perm (e :: ents slots) := by
    rw [hset, hs, ents_append, ents_append, ents_cons_some, ents_cons_none]
    exact List.perm_middle
  refine ⟨⟨by simpa using hI.pow, ?_, ?_, ?_, ?_⟩, hperm⟩
  · intro e' he'
    rcases List.mem_cons.mp (hperm.mem_iff.mp he') with h | h
    · subst h; exact hh
    · exact hI.hashed e' h
  · intro k e' hk
    by_cases hik : i = k
    · subst hik
      have hilt : i < slots.length := (List.getElem?_eq_some_iff.mp hfree).1
      rw [List.getElem?_set_self hilt] at hk
      cases hk
      exact reach_set hr
    · rw [List.getElem?_set_ne hik] at hk
      exact reach_set (hI.reach k e' hk)
  · rw [(hperm.map Entry.text).nodup_iff, List.map_cons, List.nodup_cons]
    refine ⟨?_, hI.nodup⟩
    intro hmem
    obtain ⟨e', he', het⟩ := List.mem_map.mp hmem
    exact hnew e' he' het
  · rw [hperm.length_eq]; simpa using hroom

theorem TInv.replicate (hash : Text → Nat) (k : Nat) :
    TInv hash (List.replicate (2 ^ k) (none : Option (Entry α))) := by
  refine ⟨⟨k, by simp⟩, ?_, ?_, ?_, ?_⟩
  · rw [ents_replicate]; simp
  · intro i e h
    rw [List.getElem?_replicate] at h
    split at h <;> simp at h
  · rw [ents_replicate]; simp
  · rw [ents_replicate]; simp [Nat.two_pow_pos]

/-- Rehashing adds exactly the entries of the old buckets. -/
theorem rehash_spec {hash : Text → Nat} : ∀ (os : List (Option (Entry α)))
    (slots : List (Option (Entry α))), TInv hash slots →
    (∀ e ∈ ents os, e.hashval = hash e.text) →
    ((ents os).map Entry.text).Nodup →
    (∀ e ∈ ents os, ∀ e' ∈ ents slots, e'.text ≠ e.text) →
    (ents slots).length + (ents os).length < slots.length →
    ∃ s', rehash slots os = .ok s' ∧ TInv hash s' ∧ s'.length = slots.length ∧
      (ents s').Perm (ents os ++ ents slots) := by
  intro os
  induction os with
  | nil => intro slots hI _ _ _ _; exact ⟨slots, rfl, hI, rfl, by simp [ents]⟩
  | cons o os ih =>
    intro slots hI hh hnd hdis hlen
    cases o with
    | none =>
      rw [ents_cons_none] at *
      obtain ⟨s', h1, h2, h3, h4⟩ := ih slots hI hh hnd hdis hlen
      exact ⟨s', by simp only [rehash, rehashSlot, bind, Except.bind]; exact h1, h2, h3, h4⟩
    | some e =>
      rw [ents_cons_some] at *
      obtain ⟨d, hd, hfree, hocc⟩ := first_free hI.room e.hashval
      have hpf := probeFree_spec hI.pow e.hashval slots.length d 0 (by omega) (by omega) hfree hocc
      rw [List.map_cons, List.nodup_cons] at hnd
      obtain ⟨hI', hperm⟩ := hI.insert hfree ⟨d, rfl, hocc⟩ (hh e (by simp)) (hdis e (by simp))
        (by simp at hlen; omega)
      obtain ⟨s', h1, h2, h3, h4⟩ := ih _ hI' (fun e' he' => hh e' (by simp [he'])) hnd.2
        (by
          intro e1 he1 e2 he2
          rcases List.mem_cons.mp (hperm.mem_iff.mp he2) with h | h
          · subst h
            intro heq
            exact hnd.1 (List.mem_map.mpr ⟨e1, he1, heq.symm⟩)
          · exact hdis e1 (by simp [he1]) e2 h)
        (by rw [hperm.length_eq]; simp at hlen ⊢; omega)
      refine ⟨s', ?_, h2, by simpa using h3, ?_⟩
      · simp only [rehash, rehashSlot, mask_eq hI.pow, bind, Except.bind]
        rw [Nat.add_zero] at hpf
        rw [hpf]
        exact h1
      · refine h4.trans ((hperm.append_left _).trans ?_)
        simp

/-- A table as a whole. -/
structure TabOk (hash : Text → Nat) (t : Table α) : Prop where
  n_eq : t.n = (ents t.slots).length
  st : (t.slots = [] ∧ t.hwm = 0) ∨ (TInv hash t.slots ∧ t.hwm < t.slots.length)

theorem TabOk.new (hash : Text → Nat) : TabOk hash (newTable : Table α) :=
  ⟨rfl, Or.inl ⟨rfl, rfl⟩⟩

theorem TabOk.nodup {hash : Text → Nat} {t : Table α} (h : TabOk hash t) :
    ((ents t.slots).map Entry.text).Nodup := by
  rcases h.st with ⟨h, _⟩ | ⟨h, _⟩
  · rw [h]; simp [ents]
  · exact h.nodup

theorem TabOk.hashed {hash : Text → Nat} {t : Table α} (h : TabOk hash t) :
    ∀ e ∈ ents t.slots, e.hashval = hash e.text := by
  rcases h.st with ⟨h, _⟩ | ⟨h, _⟩
  · rw [h]; simp [ents]
  · exact h.hashed

theorem enlarge_spec {hash : Text → Nat} {t : Table α} (ht : TabOk hash t) :
    ∃ t', enlarge t = .ok t' ∧ t'.n = t.n ∧ TInv hash t'.slots ∧ t'.hwm < t'.slots.length ∧
      t'.n + 1 < t'.slots.length ∧ (ents t'.slots).Perm (ents t.slots) := by
  rcases ht.st with ⟨hs, _⟩ | ⟨hI, _⟩
  · have hn : t.n = 0 := by rw [ht.n_eq, hs]; simp [ents]
    refine ⟨{ t with slots := List.replicate 1024 none, hwm := 384 }, ?_, rfl, ?_, ?_, ?_, ?_⟩
    · simp only [enlarge, enlargedSlots, hs, List.length_nil, if_true, bind, Except.bind,
        List.length_replicate]
      rfl
    · exact TInv.replicate hash 10
    · simp only [List.length_replicate]; decide
    · simp only [List.length_replicate, hn]; decide
    · simp only [ents_replicate, hs]; exact List.Perm.refl _
  · obtain ⟨k, hk⟩ := hI.pow
    have hpos : 0 < t.slots.length := by have := hI.room; omega
    have hrep : TInv hash (List.replicate (t.slots.length <<< 1) (none : Option (Entry α))) := by
      have := TInv.replicate (α := α) hash (k + 1)
      rwa [Nat.pow_succ, ← hk, ← Nat.pow_one 2, ← Nat.shiftLeft_eq] at this
    obtain ⟨s', h1, h2, h3, h4⟩ := rehash_spec t.slots _ hrep hI.hashed hI.nodup
      (by rw [ents_replicate]; simp)
      (by rw [ents_replicate]; have := hI.room; simp [Nat.shiftLeft_eq]; omega)
    rw [ents_replicate, List.append_nil] at h4
    have hl : s'.length = t.slots.length * 2 := by rw [h3]; simp [Nat.shiftLeft_eq]
    refine ⟨{ t with slots := s', hwm := (s'.length >>> 2) + (s'.length >>> 3) }, ?_, rfl, h2, ?_, ?_, h4⟩
    · simp only [enlarge, enlargedSlots, if_neg (show ¬ t.slots.length = 0 by omega), bind, Except.bind, h1]
    · simp only [Nat.shiftRight_eq_div_pow]; omega
    · simp only [hl, ht.n_eq]; have := hI.room; omega

/-- Find or insert: the entry for `text` is at the returned index; it is the old one if there was
one and a new one otherwise; no other entry changes. -/
theorem findOrInsert_spec {hash : Text → Nat} {fresh : α} {text : Text} {t : Table α}
    (ht : TabOk hash t) :
    ∃ t' i e, findOrInsert hash fresh text t = .ok (t', i) ∧ TabOk hash t' ∧
      t'.slots[i]? = some (some e) ∧ e.text = text ∧
      ((e ∈ ents t.slots ∧ (ents t'.slots).Perm (ents t.slots)) ∨
       ((∀ e' ∈ ents t.slots, e'.text ≠ text) ∧ e.data = fresh ∧
          (ents t'.slots).Perm (e :: ents t.slots))) := by
  -- the table after the possible enlargement
  obtain ⟨t1, h1, hn1, hI, hhwm, hroom, hperm1⟩ : ∃ t1, maybeEnlarge t = .ok t1 ∧
      t1.n = t.n ∧ TInv hash t1.slots ∧ t1.hwm < t1.slots.length ∧ t1.n + 1 < t1.slots.length ∧
      (ents t1.slots).Perm (ents t.slots) := by
    unfold maybeEnlarge
    split
    · exact enlarge_spec ht
    · next h =>
      rcases ht.st with ⟨_, hw⟩ | ⟨hI, hw⟩
      · omega
      · exact ⟨t, rfl, rfl, hI, hw, by omega, List.Perm.refl _⟩
  have hn1' : t1.n = (ents t1.slots).length := by rw [hn1, ht.n_eq, hperm1.length_eq]
  have hpos : 0 < t1.slots.length := by omega
  simp only [findOrInsert, h1, bind, Except.bind, mask_eq hI.pow]
  -- the probe stops at the first bucket that is free or holds the text
  obtain ⟨df, hdf, hfree, _⟩ := first_free hI.room (hash text)
  obtain ⟨d, hd, hmin⟩ := least_nat (fun d => t1.slots[(hash text + d) % t1.slots.length]? = some none ∨
        ∃ e, t1.slots[(hash text + d) % t1.slots.length]? = some (some e) ∧ e.text = text) ⟨df, Or.inl hfree⟩
  have hdlt : d < t1.slots.length := by
    rcases Nat.lt_or_ge d t1.slots.length with h | h
    · exact h
    · exact absurd (Or.inl hfree) (hmin df (by omega))
  have hbefore : ∀ d' < d, ∃ e, t1.slots[(hash text + d') % t1.slots.length]? = some (some e) ∧ e.text ≠ text := by
    intro d' hd'
    have := hmin d' hd'
    rcases getElem?_mod hpos (hash text + d') with h | ⟨e, he⟩
    · exact absurd (Or.inl h) this
    · refine ⟨e, he, fun het => this (Or.inr ⟨e, he, het⟩)⟩
  have hp := probe_spec hI.pow text (hash text) t1.slots.length d 0 (by omega) (by omega) hd hbefore
  rw [Nat.add_zero] at hp
  rw [hp]
  simp only
  rcases hd with hd | ⟨e, hd, het⟩
  · -- free: the text is not in the table
    have habs : ∀ e' ∈ ents t1.slots, e'.text ≠ text := by
      intro e' he' het
      obtain ⟨j, hj⟩ := mem_ents.mp he'
      obtain ⟨d0, hd0, hocc0⟩ := hI.reach j e' hj
      rw [hI.hashed e' he', het] at hd0 hocc0
      rcases Nat.lt_or_ge d d0 with h | h
      · obtain ⟨e2, he2⟩ := hocc0 d h
        rw [hd] at he2; cases he2
      · rcases Nat.eq_or_lt_of_le h with h | h
        · subst h; rw [hd0, hj] at hd; cases hd
        · obtain ⟨e2, he2, hne⟩ := hbefore d0 h
          rw [hd0, hj] at he2; cases he2; exact hne het
    obtain ⟨hI', hperm⟩ := hI.insert (e := { text := text, hashval := hash text, data := fresh }) hd
      ⟨d, rfl, fun d' hd' => let ⟨e, he, _⟩ := hbefore d' hd'; ⟨e, he⟩⟩ rfl habs (by omega)
    rw [hd]
    refine ⟨_, _, { text := text, hashval := hash text, data := fresh }, rfl, ⟨?_, Or.inr ⟨hI', by simpa using hhwm⟩⟩, ?_, rfl, Or.inr ⟨?_, rfl, ?_⟩⟩
    · simp only [hperm.length_eq]; simp [hn1']
    · simp only; rw [List.getElem?_set_self (Nat.mod_lt _ hpos)]
    · intro e' he'; exact habs e' (hperm1.mem_iff.mpr he')
    · exact hperm.trans (hperm1.cons _)
  · rw [hd]
    exact ⟨t1, _, e, rfl, ⟨hn1', Or.inr ⟨hI, hhwm⟩⟩, hd, het,
      Or.inl ⟨hperm1.mem_iff.mp (mem_ents.mpr ⟨_, hd⟩), hperm1⟩⟩

/-- Changing the payload of one entry. -/
theorem updateAt_spec {hash : Text → Nat} {f : α → Res α} {t : Table α} {i : Nat} {e : Entry α}
    {d : α} (ht : TabOk hash t) (hi : t.slots[i]? = some (some e)) (hf : f e.data = .ok d) :
    ∃ t', updateAt f t i = .ok t' ∧ TabOk hash t' ∧
      ∃ rest, (ents t.slots).Perm (e :: rest) ∧ (ents t'.slots).Perm ({ e with data := d } :: rest) := by
  obtain ⟨a, b, hs, hal, hset⟩ := split_at hi
  have hlt := (List.getElem?_eq_some_iff.mp hi).1
  refine ⟨{ t with slots := t.slots.set i (some { e with data := d }) }, ?_, ?_, ents a ++ ents b, ?_, ?_⟩
  · simp only [updateAt, hi, hf, bind, Except.bind]
  · have hocc : ∀ j, Occ t.slots j → Occ (t.slots.set i (some { e with data := d })) j := fun j => occ_set
    have hents : ents (t.slots.set i (some { e with data := d })) = ents a ++ { e with data := d } :: ents b := by
      rw [hset, ents_append, ents_cons_some]
    have hents0 : ents t.slots = ents a ++ e :: ents b := by
      conv => lhs; rw [hs]
      rw [ents_append, ents_cons_some]
    constructor
    · simp only [hents, ht.n_eq, hents0]; simp
    · right
      rcases ht.st with ⟨h, _⟩ | ⟨hI, hw⟩
      · rw [h] at hi; simp at hi
      · refine ⟨⟨by simpa using hI.pow, ?_, ?_, ?_, ?_⟩, by simpa using hw⟩
        · intro e' he'
          simp only [hents] at he'
          have hh := hI.hashed
          rw [hents0] at hh
          rcases List.mem_append.mp he' with h | h
          · exact hh e' (by simp [h])
          · rcases List.mem_cons.mp h with h | h
            · subst h; exact hh e (by simp)
            · exact hh e' (by simp [h])
        · intro j e' hj
          by_cases hij : i = j
          · subst hij
            simp only at hj
            rw [List.getElem?_set_self hlt] at hj
            cases hj
            exact reach_set (hI.reach i e hi)
          · simp only at hj
            rw [List.getElem?_set_ne hij] at hj
            exact reach_set (hI.reach j e' hj)
        · have := hI.nodup
          simp only [hents]
          rw [hents0] at this
          simpa using this
        · simp only [hents]
          have := hI.room
          rw [hents0] at this
          simpa using this
  · conv => lhs; rw [hs]
    rw [ents_append, ents_cons_some]
    exact List.perm_middle
  · simp only
    rw [hset, ents_append, ents_cons_some]
    exact List.perm_middle

/-! ## Loading -/

theorem pow2AtLeast_spec (n : Nat) : ∀ (fuel k : Nat), n ≤ 2 ^ (k + fuel) →
    (∃ j, pow2AtLeast n fuel (2 ^ k) = 2 ^ j) ∧ n ≤ pow2AtLeast n fuel (2 ^ k) := by
  intro fuel
  induction fuel with
  | zero => intro k h; exact ⟨⟨k, rfl⟩, h⟩
  | succ fuel ih =>
    intro k h
    simp only [pow2AtLeast]
    split
    · have : (2 ^ k) <<< 1 = 2 ^ (k + 1) := by rw [Nat.shiftLeft_eq]; simp [Nat.pow_succ]
      rw [this]
      exact ih (k + 1) (by rw [Nat.add_right_comm] ; exact h)
    · exact ⟨⟨k, rfl⟩, by omega⟩

theorem importSize_spec (n : Nat) : (∃ k, importSize n = 2 ^ k) ∧ n < importSize n := by
  obtain ⟨⟨j, hj⟩, hle⟩ := pow2AtLeast_spec n n 0 (by
    have : n < 2 ^ n := Nat.lt_two_pow_self
    rw [Nat.zero_add]; omega)
  rw [Nat.pow_zero] at hj hle
  unfold importSize
  rw [hj, Nat.shiftLeft_eq]
  rw [hj] at hle
  have : 0 < 2 ^ j := Nat.two_pow_pos j
  exact ⟨⟨j + 1, by simp [Nat.pow_succ]⟩, by omega⟩

theorem importLoop_spec {hash : Text → Nat} {check : Bool} {ok : α → Bool} : ∀ (toks : List (Text × α))
    (slots : List (Option (Entry α))), TInv hash slots →
    (∀ p ∈ toks, ok p.2 = true) → (toks.map Prod.fst).Nodup →
    (∀ p ∈ toks, ∀ e' ∈ ents slots, e'.text ≠ p.1) →
    (ents slots).length + toks.length < slots.length →
    ∃ s', importLoop hash check ok toks slots = .ok s' ∧ TInv hash s' ∧ s'.length = slots.length ∧
      (ents s').Perm (toks.map (fun p => { text := p.1, hashval := hash p.1, data := p.2 }) ++ ents slots) := by
  intro toks
  induction toks with
  | nil => intro slots hI _ _ _ _; exact ⟨slots, rfl, hI, rfl, by simp⟩
  | cons p toks ih =>
    intro slots hI hok hnd hdis hlen
    obtain ⟨text, dat⟩ := p
    obtain ⟨d, hd, hfree, hocc⟩ := first_free hI.room (hash text)
    have hpf := probeFree_spec hI.pow (hash text) slots.length d 0 (by omega) (by omega) hfree hocc
    have hpn := probeNew_spec hI.pow text (hash text) (hdis (text, dat) (by simp)) slots.length 0
    rw [Nat.add_zero] at hpf hpn
    have his : importSlot check slots text (hash text % slots.length) = .ok ((hash text + d) % slots.length) := by
      unfold importSlot; split
      · rw [hpn, hpf]
      · exact hpf
    rw [List.map_cons, List.nodup_cons] at hnd
    obtain ⟨hI', hperm⟩ := hI.insert (e := { text := text, hashval := hash text, data := dat }) hfree
      ⟨d, rfl, hocc⟩ rfl (hdis (text, dat) (by simp)) (by simp at hlen; omega)
    obtain ⟨s', h1, h2, h3, h4⟩ := ih _ hI' (fun q hq => hok q (by simp [hq])) hnd.2
      (by
        intro q hq e2 he2
        rcases List.mem_cons.mp (hperm.mem_iff.mp he2) with h | h
        · subst h
          intro heq
          exact hnd.1 (List.mem_map.mpr ⟨q, hq, heq.symm⟩)
        · exact hdis q (by simp [hq]) e2 h)
      (by rw [hperm.length_eq]; simp at hlen ⊢; omega)
    refine ⟨s', ?_, h2, by simpa using h3, ?_⟩
    · simp only [importLoop, hok (text, dat) (by simp), if_true, mask_eq hI.pow, his, bind, Except.bind]
      exact h1
    · refine h4.trans ((hperm.append_left _).trans ?_)
      simp

/-- Loading a duplicate-free list of tokens gives a well-formed table with exactly these tokens. -/
theorem importTable_spec {hash : Text → Nat} {check : Bool} {ok : α → Bool} (toks : List (Text × α))
    (hok : ∀ p ∈ toks, ok p.2 = true) (hnd : (toks.map Prod.fst).Nodup) :
    ∃ t, importTable hash check ok toks = .ok t ∧ TabOk hash t ∧
      (ents t.slots).Perm (toks.map (fun p => { text := p.1, hashval := hash p.1, data := p.2 })) := by
  obtain ⟨⟨k, hk⟩, hlt⟩ := importSize_spec toks.length
  have hrep : TInv hash (List.replicate (importSize toks.length) (none : Option (Entry α))) := by
    rw [hk]; exact TInv.replicate hash k
  obtain ⟨s', h1, h2, h3, h4⟩ := importLoop_spec (check := check) (ok := ok) toks _ hrep hok hnd
    (by rw [ents_replicate]; simp) (by rw [ents_replicate]; simpa using hlt)
  rw [ents_replicate, List.append_nil] at h4
  refine ⟨{ slots := s', n := toks.length, hwm := (toks.length + importSize toks.length) >>> 1 }, ?_,
    ⟨?_, Or.inr ⟨h2, ?_⟩⟩, h4⟩
  · simp only [importTable, h1, bind, Except.bind]
  · rw [h4.length_eq]; simp
  · rw [h3]; simp only [List.length_replicate, Nat.shiftRight_eq_div_pow]; omega

/-! ## Purging -/

/-- What must hold of the buckets while the gaps are being closed. -/
structure PInv (hash : Text → Nat) (slots : List (Option (Entry α))) : Prop where
  pow : ∃ k, slots.length = 2 ^ k
  hashed : ∀ e ∈ ents slots, e.hashval = hash e.text
  nodup : ((ents slots).map Entry.text).Nodup
  room : (ents slots).length < slots.length

/-- Distance from the natural bucket. -/
def dist (size h i : Nat) : Nat := (i + (size - h % size)) % size

theorem dist_eq {n h d : Nat} (hd : d < n) : dist n h ((h + d) % n) = d := by
  have hr : h % n < n := Nat.mod_lt _ (by omega)
  have h1 : (h + d) % n = (h % n + d) % n := by simp
  unfold dist
  rw [h1]
  generalize h % n = r at *
  rcases Nat.lt_or_ge (r + d) n with h2 | h2
  · rw [Nat.mod_eq_of_lt h2, show r + d + (n - r) = d + n by omega, Nat.add_mod_right,
      Nat.mod_eq_of_lt hd]
  · have h3 : (r + d) % n = r + d - n := by
      rw [Nat.mod_eq_sub_mod h2, Nat.mod_eq_of_lt (by omega)]
    rw [h3, show r + d - n + (n - r) = d by omega, Nat.mod_eq_of_lt hd]

def weight (size i : Nat) : Option (Entry α) → Nat
  | none => 0
  | some e => dist size e.hashval i

/-- Sum of the distances of all entries from their natural buckets. -/
def dispFrom (size : Nat) : Nat → List (Option (Entry α)) → Nat
  | _, [] => 0
  | k, o :: os => weight size k o + dispFrom size (k + 1) os

theorem dispFrom_append (size : Nat) (a b : List (Option (Entry α))) : ∀ k,
    dispFrom size k (a ++ b) = dispFrom size k a + dispFrom size (k + a.length) b := by
  induction a with
  | nil => simp [dispFrom]
  | cons o os ih =>
    intro k
    simp only [List.cons_append, dispFrom, ih, List.length_cons]
    rw [show k + 1 + os.length = k + (os.length + 1) by omega]
    omega

def disp (slots : List (Option (Entry α))) : Nat := dispFrom slots.length 0 slots

theorem disp_set {slots : List (Option (Entry α))} {i : Nat} {x y : Option (Entry α)}
    (h : slots[i]? = some x) :
    disp (slots.set i y) + weight slots.length i x = disp slots + weight slots.length i y := by
  obtain ⟨a, b, hs, hal, hset⟩ := split_at h
  unfold disp
  rw [List.length_set, hset]
  conv => rhs; rw [show dispFrom slots.length 0 slots = dispFrom slots.length 0 (a ++ x :: b) by rw [← hs]]
  rw [dispFrom_append, dispFrom_append]
  simp only [dispFrom, Nat.zero_add, hal]
  omega

theorem findGap_spec {slots : List (Option (Entry α))} (hp : ∃ k, slots.length = 2 ^ k) (h i : Nat) :
    ∀ (fuel d d0 : Nat), d0 ≤ d → d < d0 + fuel → (h + d) % slots.length = i → d < slots.length →
    (∀ d' < d0, Occ slots ((h + d') % slots.length)) →
    (findGap slots i fuel ((h + d0) % slots.length) = .ok none ∧
      ∀ d' < d, Occ slots ((h + d') % slots.length)) ∨
    (∃ d1 < d, slots[(h + d1) % slots.length]? = some none ∧
      findGap slots i fuel ((h + d0) % slots.length) = .ok (some ((h + d1) % slots.length))) := by
  intro fuel
  induction fuel with
  | zero => intro d d0 h1 h2; omega
  | succ fuel ih =>
    intro d d0 h1 h2 hi hlt hocc
    simp only [findGap]
    split
    · next heq =>
      -- the walk has arrived at `i`
      have hd0 : d0 = d := by
        have a1 := dist_eq (n := slots.length) (h := h) (d := d0) (by omega)
        have a2 := dist_eq (n := slots.length) (h := h) (d := d) hlt
        rw [heq] at a1; rw [hi] at a2; omega
      subst hd0
      exact Or.inl ⟨rfl, hocc⟩
    · next hne =>
      have hd0 : d0 < d := by
        rcases Nat.eq_or_lt_of_le h1 with h' | h'
        · subst h'; exact absurd hi hne
        · exact h'
      rcases getElem?_mod (slots := slots) (by omega) (h + d0) with hf | ⟨e, he⟩
      · rw [hf]; exact Or.inr ⟨d0, hd0, hf, rfl⟩
      · rw [he]
        simp only
        rw [nextIndex_eq hp]
        refine ih d (d0 + 1) (by omega) (by omega) hi hlt ?_
        intro d' hd'
        rcases Nat.lt_or_ge d' d0 with h' | h'
        · exact hocc d' h'
        · rw [show d' = d0 by omega]; exact ⟨e, he⟩

/-- Bucket `i` needs no moving: it is free or reachable from its entry's natural bucket. -/
def Settled (slots : List (Option (Entry α))) (i : Nat) : Prop :=
  ∀ e, slots[i]? = some (some e) → Reach slots e.hashval i

theorem closeGapAt_spec {hash : Text → Nat} {slots : List (Option (Entry α))} (hI : PInv hash slots)
    {i : Nat} (hi : i < slots.length) :
    (closeGapAt slots i = .ok (slots, false) ∧ Settled slots i) ∨
    ∃ s', closeGapAt slots i = .ok (s', true) ∧ PInv hash s' ∧ s'.length = slots.length ∧
      (ents s').Perm (ents slots) ∧ disp s' < disp slots := by
  have hget : slots[i]? = some slots[i] := List.getElem?_eq_getElem hi
  cases ho : slots[i] with
  | none =>
    rw [ho] at hget
    left
    refine ⟨by simp [closeGapAt, hget], ?_⟩
    intro e he; rw [hget] at he; cases he
  | some e =>
    rw [ho] at hget
    obtain ⟨d, hd, hdi⟩ := exists_dist (by omega : 0 < slots.length) e.hashval i hi
    simp only [closeGapAt, hget, mask_eq hI.pow]
    split
    · next hhome =>
      left
      refine ⟨rfl, ?_⟩
      intro e' he'; rw [hget] at he'; cases he'
      exact ⟨0, by simpa using hhome, by simp⟩
    · rcases findGap_spec hI.pow e.hashval i slots.length d 0 (by omega) (by omega) hdi hd (by simp)
        with ⟨h1, h2⟩ | ⟨d1, hd1, hfree, h2⟩
      · left
        rw [Nat.add_zero] at h1
        simp only [h1, bind, Except.bind]
        refine ⟨trivial, ?_⟩
        intro e' he'; rw [hget] at he'; cases he'
        exact ⟨d, hdi, h2⟩
      · right
        rw [Nat.add_zero] at h2
        simp only [h2, bind, Except.bind]
        generalize hj : (e.hashval + d1) % slots.length = j at *
        have hjlt : j < slots.length := (List.getElem?_eq_some_iff.mp hfree).1
        have hij : j ≠ i := by
          intro h; subst h; rw [hfree] at hget; cases hget
        have hget2 : (slots.set j (some e))[i]? = some (some e) := by
          rw [List.getElem?_set_ne hij]; exact hget
        have hperm1 : (ents (slots.set j (some e))).Perm (e :: ents slots) := by
          obtain ⟨a, b, hs, hal, hset⟩ := split_at hfree
          rw [hset, hs, ents_append, ents_append, ents_cons_some, ents_cons_none]
          exact List.perm_middle
        have hperm2 : (ents (slots.set j (some e))).Perm
            (e :: ents ((slots.set j (some e)).set i none)) := by
          obtain ⟨a, b, hs, hal, hset⟩ := split_at hget2
          rw [hset]
          conv => lhs; rw [hs]
          rw [ents_append, ents_append, ents_cons_some, ents_cons_none]
          exact List.perm_middle
        have hperm : (ents ((slots.set j (some e)).set i none)).Perm (ents slots) :=
          (List.perm_cons e).mp (hperm2.symm.trans hperm1)
        refine ⟨_, rfl, ⟨by simpa using hI.pow, ?_, ?_, ?_⟩, by simp, hperm, ?_⟩
        · intro e' he'; exact hI.hashed e' (hperm.mem_iff.mp he')
        · rw [(hperm.map Entry.text).nodup_iff]; exact hI.nodup
        · rw [hperm.length_eq]; simpa using hI.room
        · have h1 := disp_set (y := some e) hfree
          have h2 := disp_set (y := none) hget2
          simp only [weight, List.length_set] at h1 h2
          have h3 := dist_eq (n := slots.length) (h := e.hashval) hd
          have h4 := dist_eq (n := slots.length) (h := e.hashval) (d := d1) (by omega)
          rw [hdi] at h3
          rw [hj] at h4
          omega

theorem closePass_spec {hash : Text → Nat} : ∀ (is : List Nat) (slots : List (Option (Entry α)))
    (moved : Bool), PInv hash slots → (∀ i ∈ is, i < slots.length) →
    ∃ s' m, closePass is slots moved = .ok (s', m) ∧ PInv hash s' ∧ s'.length = slots.length ∧
      (ents s').Perm (ents slots) ∧
      ((m = moved ∧ s' = slots ∧ ∀ i ∈ is, Settled slots i) ∨ (m = true ∧ disp s' < disp slots)) := by
  intro is
  induction is with
  | nil =>
    intro slots moved hI _
    exact ⟨slots, moved, rfl, hI, rfl, List.Perm.refl _, Or.inl ⟨rfl, rfl, by simp⟩⟩
  | cons i is ih =>
    intro slots moved hI hlt
    rcases closeGapAt_spec hI (hlt i (by simp)) with ⟨h1, h2⟩ | ⟨s1, h1, hI1, hl1, hp1, hd1⟩
    · obtain ⟨s', m, h3, h4, h5, h6, h7⟩ := ih slots moved hI (fun j hj => hlt j (by simp [hj]))
      refine ⟨s', m, ?_, h4, h5, h6, ?_⟩
      · simp only [closePass, h1, bind, Except.bind, Bool.or_false]; exact h3
      · rcases h7 with ⟨ha, hb, hc⟩ | h
        · left
          refine ⟨ha, hb, ?_⟩
          intro j hj
          rcases List.mem_cons.mp hj with h | h
          · subst h; exact h2
          · exact hc j h
        · exact Or.inr h
    · obtain ⟨s', m, h3, h4, h5, h6, h7⟩ := ih s1 true hI1 (fun j hj => by rw [hl1]; exact hlt j (by simp [hj]))
      refine ⟨s', m, ?_, h4, by omega, h6.trans hp1, Or.inr ?_⟩
      · simp only [closePass, h1, bind, Except.bind, Bool.or_true]; exact h3
      · rcases h7 with ⟨ha, hb, _⟩ | ⟨ha, hb⟩
        · subst hb; exact ⟨ha, hd1⟩
        · exact ⟨ha, by omega⟩

theorem closeGaps_spec {hash : Text → Nat} : ∀ (fuel : Nat) (slots : List (Option (Entry α))),
    PInv hash slots → disp slots < fuel →
    ∃ s', closeGaps fuel slots = .ok s' ∧ TInv hash s' ∧ s'.length = slots.length ∧
      (ents s').Perm (ents slots) := by
  intro fuel
  induction fuel with
  | zero => intro slots _ h; omega
  | succ fuel ih =>
    intro slots hI hd
    obtain ⟨s1, m, h1, h2, h3, h4, h5⟩ := closePass_spec (List.range slots.length) slots false hI
      (by intro i hi; simpa using hi)
    simp only [closeGaps, h1, bind, Except.bind]
    rcases h5 with ⟨ha, hb, hc⟩ | ⟨ha, hb⟩
    · subst ha; subst hb
      refine ⟨s1, rfl, ⟨hI.pow, hI.hashed, ?_, hI.nodup, hI.room⟩, rfl, List.Perm.refl _⟩
      intro i e he
      exact hc i (by simpa using (List.getElem?_eq_some_iff.mp he).1) e he
    · subst ha
      obtain ⟨s', h6, h7, h8, h9⟩ := ih s1 h2 (by omega)
      exact ⟨s', by simpa using h6, h7, by omega, h9.trans h4⟩

theorem recodeSlots_spec {f : α → Res α} {dead : α → Bool} {g : α → α} :
    ∀ (slots : List (Option (Entry α))), (∀ e ∈ ents slots, f e.data = .ok (g e.data)) →
    ∃ s' k, recodeSlots f dead slots = .ok (s', k) ∧ s'.length = slots.length ∧
      ents s' = ((ents slots).map (fun e => { e with data := g e.data })).filter (fun e => !dead e.data) ∧
      (ents s').length + k = (ents slots).length ∧
      (k = 0 → ∀ i, (∃ e, s'[i]? = some (some e) ∧
        ∃ e0, slots[i]? = some (some e0) ∧ e = { e0 with data := g e0.data }) ∨
        (s'[i]? = slots[i]? ∧ ¬ Occ slots i)) := by
  intro slots
  induction slots with
  | nil => intro _; exact ⟨[], 0, rfl, rfl, by simp [ents], by simp [ents], by intro _ i; right; simp [Occ]⟩
  | cons o os ih =>
    intro hf
    cases o with
    | none =>
      rw [ents_cons_none] at *
      obtain ⟨s', k, h1, h2, h3, h4, h5⟩ := ih hf
      refine ⟨none :: s', k, ?_, by simp [h2], by rw [ents_cons_none]; exact h3,
        by rw [ents_cons_none]; exact h4, ?_⟩
      · simp only [recodeSlots, h1, bind, Except.bind]
      · intro hk i
        cases i with
        | zero => right; simp [Occ]
        | succ i =>
          rcases h5 hk i with h | ⟨h, h'⟩
          · left; simpa using h
          · right; exact ⟨by simpa using h, fun ⟨e, he⟩ => h' ⟨e, by simpa using he⟩⟩
    | some e =>
      rw [ents_cons_some] at *
      obtain ⟨s', k, h1, h2, h3, h4, h5⟩ := ih (fun e' he' => hf e' (by simp [he']))
      have he := hf e (by simp)
      cases hdead : dead (g e.data) with
      | true =>
        refine ⟨none :: s', k + 1, ?_, by simp [h2], ?_, ?_, ?_⟩
        · simp only [recodeSlots, he, h1, bind, Except.bind, hdead]; rfl
        · rw [ents_cons_none, h3, List.map_cons, List.filter_cons_of_neg (by simp [hdead])]
        · rw [ents_cons_none]; simp; omega
        · intro hk; omega
      | false =>
        refine ⟨some { e with data := g e.data } :: s', k, ?_, by simp [h2], ?_, ?_, ?_⟩
        · simp only [recodeSlots, he, h1, bind, Except.bind, hdead]; rfl
        · rw [ents_cons_some, h3, List.map_cons, List.filter_cons_of_pos (by simp [hdead])]
        · rw [ents_cons_some]; simp; omega
        · intro hk i
          cases i with
          | zero => left; exact ⟨_, rfl, e, rfl, rfl⟩
          | succ i =>
            rcases h5 hk i with h | ⟨h, h'⟩
            · left; simpa using h
            · right; exact ⟨by simpa using h, fun ⟨e, he⟩ => h' ⟨e, by simpa using he⟩⟩

/-- A purge of a table: it terminates, and its entries are exactly the recoded ones that are not
dead. -/
theorem recodeTable_spec {hash : Text → Nat} {f : α → Res α} {dead : α → Bool} {g : α → α}
    {t : Table α} (ht : TabOk hash t) (hf : ∀ e ∈ ents t.slots, f e.data = .ok (g e.data)) :
    ∃ fuel0, ∀ fuel ≥ fuel0, ∃ t', recodeTable fuel f dead t = .ok t' ∧ TabOk hash t' ∧
      (ents t'.slots).Perm
        (((ents t.slots).map (fun e => { e with data := g e.data })).filter (fun e => !dead e.data)) := by
  obtain ⟨s1, k, h1, h2, h3, h4, h5⟩ := recodeSlots_spec (dead := dead) (g := g) t.slots hf
  refine ⟨disp s1 + 1, fun fuel hfuel => ?_⟩
  simp only [recodeTable, h1, bind, Except.bind]
  have hsub : ∀ e ∈ ents s1, ∃ e0 ∈ ents t.slots, e = { e0 with data := g e0.data } := by
    intro e he
    rw [h3] at he
    obtain ⟨e0, he0, rfl⟩ := List.mem_map.mp (List.mem_filter.mp he).1
    exact ⟨e0, he0, rfl⟩
  have hnd : ((ents s1).map Entry.text).Nodup := by
    have h6 : ((ents s1).map Entry.text).Sublist ((ents t.slots).map Entry.text) := by
      rw [h3]
      have := (List.filter_sublist (l := (ents t.slots).map (fun e => { e with data := g e.data }))
        (p := fun e => !dead e.data)).map Entry.text
      simpa [List.map_map, Function.comp_def] using this
    exact ht.nodup.sublist h6
  have hhash : ∀ e ∈ ents s1, e.hashval = hash e.text := by
    intro e he
    obtain ⟨e0, he0, rfl⟩ := hsub e he
    exact ht.hashed e0 he0
  rcases ht.st with ⟨hs, hw⟩ | ⟨hI, hw⟩
  · have hs1 : s1 = [] := by rw [hs] at h2; exact List.length_eq_zero_iff.mp (by simpa using h2)
    have hk : k = 0 := by rw [hs] at h4; simp [ents] at h4; omega
    subst hs1; subst hk
    refine ⟨_, rfl, ⟨?_, Or.inl ⟨rfl, hw⟩⟩, by rw [← h3]⟩
    simp only [Nat.sub_zero, ht.n_eq, hs]
  · have hroom : (ents s1).length < s1.length := by have := hI.room; omega
    have hP : PInv hash s1 := ⟨by rw [h2]; exact hI.pow, hhash, hnd, hroom⟩
    unfold closeIfDead
    by_cases hk : k > 0
    · rw [if_pos hk]
      obtain ⟨s', h6, h7, h8, h9⟩ := closeGaps_spec fuel s1 hP (by omega)
      rw [h6]
      refine ⟨_, rfl, ⟨?_, Or.inr ⟨h7, by simp only; omega⟩⟩, by rw [← h3]; exact h9⟩
      simp only [ht.n_eq, h9.length_eq]; omega
    · rw [if_neg hk]
      have hk0 : k = 0 := by omega
      refine ⟨_, rfl, ⟨?_, Or.inr ⟨⟨hP.pow, hhash, ?_, hnd, hroom⟩, by simp only; omega⟩⟩, by rw [← h3]⟩
      · simp only [ht.n_eq]; omega
      · intro i e he
        have hocc : ∀ j, Occ t.slots j → Occ s1 j := by
          intro j hj
          rcases h5 hk0 j with ⟨e, h, _⟩ | ⟨_, h⟩
          · exact ⟨e, h⟩
          · exact absurd hj h
        rcases h5 hk0 i with ⟨e1, ha, e0, hb, hc⟩ | ⟨ha, hb⟩
        · simp only at he
          rw [ha] at he; cases he
          obtain ⟨d, hd1, hd2⟩ := hI.reach i e0 hb
          subst hc
          refine ⟨d, by simp only [h2]; exact hd1, fun d' hd' => ?_⟩
          have := hocc _ (hd2 d' hd')
          simp only [h2]; exact this
        · simp only at he
          rw [ha] at he
          exact absurd ⟨e, he⟩ hb

end Mairix
