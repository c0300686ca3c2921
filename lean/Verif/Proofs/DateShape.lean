import Verif.Spec.Scanners
import Verif.Proofs.DateRefuse

/-!
# The kind of a date
-/

namespace Mairix
open Spec

theorem cLetter_iff {c : UInt8} : cLetter c = true ↔ (0x61 ≤ c ∧ c ≤ 0x7a) ∨ (0x41 ≤ c ∧ c ≤ 0x5a) := by
  simp [cLetter, crange]

theorem anyMonth_ways {t : Text} : AnyMonth t ↔ Ways monthPaths t := by
  constructor
  · rintro ⟨hl, hc⟩
    refine ⟨[cLetter, cLetter, cLetter], by simp [monthPaths], ?_⟩
    match t, hl, hc with
    | [a, b, c], _, hc => simp [follows, cLetter_iff.2 (hc a (by simp)), cLetter_iff.2 (hc b (by simp)), cLetter_iff.2 (hc c (by simp))]
  · intro h
    obtain ⟨h1, h2⟩ := ways_letters h
    exact ⟨h1, fun c hc => cLetter_iff.1 (h2 c hc)⟩

theorem shape_type {t : Text} {k : DateType} (h : DateShape t k) : discoverType t = k ∧ k ≠ .failure := by
  cases h with
  | d h => exact ⟨type_d h, (fun h => by cases h)⟩
  | y h => exact ⟨type_y h, (fun h => by cases h)⟩
  | m h => exact ⟨discover_way (q := (monthPaths, .m)) (by simp [datePaths]) (anyMonth_ways.1 h), (fun h => by cases h)⟩
  | dm ha hb => exact ⟨discover_way (q := (thenPaths dayPaths monthPaths, .dm)) (by simp [datePaths]) (ways_then (dayText_ways ha) (anyMonth_ways.1 hb)), (fun h => by cases h)⟩
  | md ha hb => exact ⟨discover_way (q := (thenPaths monthPaths dayPaths, .md)) (by simp [datePaths]) (ways_then (anyMonth_ways.1 ha) (dayText_ways hb)), (fun h => by cases h)⟩
  | ym ha hb => exact ⟨discover_way (q := (thenPaths yearPaths monthPaths, .ym)) (by simp [datePaths]) (ways_then (yearText_ways ha) (anyMonth_ways.1 hb)), (fun h => by cases h)⟩
  | my ha hb => exact ⟨discover_way (q := (thenPaths monthPaths yearPaths, .my)) (by simp [datePaths]) (ways_then (anyMonth_ways.1 ha) (yearText_ways hb)), (fun h => by cases h)⟩
  | dmy ha hb hc => exact ⟨discover_way (q := (thenPaths dayPaths (thenPaths monthPaths yearPaths), .dmy)) (by simp [datePaths])
      (ways_then (dayText_ways ha) (ways_then (anyMonth_ways.1 hb) (yearText_ways hc))), (fun h => by cases h)⟩
  | ymd ha hb hc => exact ⟨discover_way (q := (thenPaths yearPaths (thenPaths monthPaths dayPaths), .ymd)) (by simp [datePaths])
      (ways_then (yearText_ways ha) (ways_then (anyMonth_ways.1 hb) (dayText_ways hc))), (fun h => by cases h)⟩
  | digits h hl => exact ⟨type_yymmdd h hl, (fun h => by cases h)⟩
  | ago h0 h hc => exact ⟨type_scaled h0 h (cLetter_iff.2 hc), (fun h => by cases h)⟩

theorem ways_shapes {q : List (List CharClass) × DateType} {t : Text} (hq : q ∈ datePaths) (h : Ways q.1 t) : DateShape t q.2 := by
  simp only [datePaths, List.mem_cons, List.not_mem_nil, or_false] at hq
  rcases hq with rfl | rfl | rfl | rfl | rfl | rfl | rfl | rfl | rfl | rfl
  · obtain ⟨d, hd⟩ := ways_day h; exact .d hd
  · obtain ⟨y, hy⟩ := ways_year h; exact .y hy
  · obtain ⟨h1, h2⟩ := ways_digits h; exact .digits h1 h2
  · exact .m (anyMonth_ways.2 h)
  · obtain ⟨a, b, rfl, ha, hb⟩ := ways_split h
    obtain ⟨d, hd⟩ := ways_day ha
    exact .dm hd (anyMonth_ways.2 hb)
  · obtain ⟨a, b, rfl, ha, hb⟩ := ways_split h
    obtain ⟨d, hd⟩ := ways_day hb
    exact .md (anyMonth_ways.2 ha) hd
  · obtain ⟨a, b, rfl, ha, hb⟩ := ways_split h
    obtain ⟨d, hd⟩ := ways_year ha
    exact .ym hd (anyMonth_ways.2 hb)
  · obtain ⟨a, b, rfl, ha, hb⟩ := ways_split h
    obtain ⟨d, hd⟩ := ways_year hb
    exact .my (anyMonth_ways.2 ha) hd
  · obtain ⟨a, b, rfl, ha, hb⟩ := ways_split h
    obtain ⟨b, c, rfl, hb, hc⟩ := ways_split hb
    obtain ⟨y, hy⟩ := ways_year ha
    obtain ⟨d, hd⟩ := ways_day hc
    exact .ymd hy (anyMonth_ways.2 hb) hd
  · obtain ⟨a, b, rfl, ha, hb⟩ := ways_split h
    obtain ⟨b, c, rfl, hb, hc⟩ := ways_split hb
    obtain ⟨y, hy⟩ := ways_year hc
    obtain ⟨d, hd⟩ := ways_day ha
    exact .dmy hd (anyMonth_ways.2 hb) hy

theorem type_shape {t : Text} (h : discoverType t ≠ .failure) : DateShape t (discoverType t) := by
  by_cases hs : discoverType t = .scaled
  · rw [hs]
    have h1 : isScaled t = true := by
      unfold discoverType at hs
      by_cases h1 : isScaled t = true
      · exact h1
      · rw [if_neg h1] at hs
        cases hf : datePaths.find? (fun p => p.1.any (fun w => follows w t)) with
        | none => rw [hf] at hs; cases hs
        | some p =>
          rw [hf] at hs
          have hp := List.mem_of_find?_eq_some hf
          simp only [datePaths, List.mem_cons, List.not_mem_nil, or_false] at hp
          rcases hp with rfl | rfl | rfl | rfl | rfl | rfl | rfl | rfl | rfl | rfl <;> cases hs
    obtain ⟨d, c, rfl, h2, h3, h4⟩ := scaled_split h1
    exact .ago h2 h3 (cLetter_iff.1 h4)
  · obtain ⟨q, hq, hq2, hw⟩ := type_ways rfl hs h
    rw [← hq2]
    exact ways_shapes hq hw

end Mairix
